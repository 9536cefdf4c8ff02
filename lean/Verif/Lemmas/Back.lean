import Verif.Lemmas.SelMore

/-! # Reverse iteration over trees with holes -/

set_option linter.unusedSimpArgs false
set_option linter.unusedVariables false
set_option linter.unnecessarySeqFocus false
set_option linter.unusedSectionVars false

namespace NI
open Finite

namespace TT
variable {α : Type} [LinearOrder α]

/-- `is` are the results of successive `next_back` calls leading from one iterator to another. -/
inductive Backs (dbg : Bool) : TineIter α → List (RawInterval α) → TineIter α → Prop
  | nil (it) : Backs dbg it [] it
  | cons {it it1 it2 i is} : it.nextBack dbg = .ok (some i, it1) → Backs dbg it1 is it2 →
      Backs dbg it (i :: is) it2

theorem Backs.snoc {dbg : Bool} {it it1 it2 : TineIter α} {is : List (RawInterval α)}
    {i : RawInterval α} (h : Backs dbg it is it1) (h1 : it1.nextBack dbg = .ok (some i, it2)) :
    Backs dbg it (is ++ [i]) it2 := by
  induction h with
  | nil => exact .cons h1 (.nil _)
  | cons h0 _ ih => exact .cons h0 (ih h1)

theorem Backs.collect {dbg : Bool} {it it1 : TineIter α} {is : List (RawInterval α)}
    (h : Backs dbg it is it1) (n : Nat) (acc : List (RawInterval α)) :
    it.collectBackAux dbg (n + is.length) acc = it1.collectBackAux dbg n (acc ++ is) := by
  induction h generalizing acc with
  | nil => simp
  | @cons it it1 it2 i is h0 _ ih =>
    have e : n + (i :: is).length = (n + is.length) + 1 := by simp; omega
    rw [e]
    simp only [TineIter.collectBackAux, h0, bind, Except.bind, ih]
    simp

theorem collectBackAux_prefix {dbg : Bool} {n : Nat} {it : TineIter α}
    {acc r : List (RawInterval α)} (h : it.collectBackAux dbg n acc = .ok r) :
    ∃ r', r = acc ++ r' := by
  induction n generalizing it acc with
  | zero => cases h; exact ⟨[], by simp⟩
  | succ n ih =>
    simp only [TineIter.collectBackAux, bind, Except.bind] at h
    split at h
    · cases h
    · split at h
      · cases h; exact ⟨[], by simp⟩
      · obtain ⟨r', rfl⟩ := ih h
        exact ⟨_, List.append_assoc _ _ _⟩

theorem pieces_length {ts : List (Tine α)} : ∀ sv, (pieces sv ts).length ≤ ts.length := by
  induction ts with
  | nil => intro sv; cases sv <;> simp [pieces]
  | cons t ts ih =>
    intro sv
    rcases sv with _ | b <;> rcases t with c | (c | c | _) | c <;> simp [pieces] <;>
      first
        | exact ih _
        | exact (ih _).trans (by omega)

/-- A list of tines without holes is walked from the back. -/
theorem backs_holeFree (dbg : Bool) {R : List (Tine α)} (hok : ∀ x ∈ R, x.Ok) (hf : HoleFree R)
    (hc : Chain false R false) (A : List (Tine α)) :
    Backs dbg ⟨A ++ R, none, none⟩ (pieces none R).reverse ⟨A, none, none⟩ := by
  generalize hn : R.length = n
  induction n using Nat.strong_induction_on generalizing R with
  | _ n ih =>
    rcases last_piece hok hf hc with rfl | ⟨B, p, rfl, hB⟩ | ⟨B, l, u, rfl, hB⟩
    · simp [pieces]; exact .nil _
    · have hokB : ∀ x ∈ B, x.Ok := fun x hx => hok x (by simp [hx])
      have hfB : HoleFree B := fun x hx => hf x (by simp [hx])
      rw [(pieces_append hokB hfB).1 hB]
      have := ih B.length (by rw [← hn]; simp) hokB hfB hB rfl
      simp only [pieces, List.reverse_append, List.reverse_cons, List.reverse_nil, List.nil_append,
        List.cons_append]
      refine .cons ?_ this
      simp [TineIter.nextBack, TineIter.nextBackWith, bind, Except.bind, ← List.append_assoc]
    · have hokB : ∀ x ∈ B, x.Ok := fun x hx => hok x (by simp [hx])
      have hfB : HoleFree B := fun x hx => hf x (by simp [hx])
      rw [(pieces_append hokB hfB).1 hB]
      have := ih B.length (by rw [← hn]; simp) hokB hfB hB rfl
      simp only [pieces, List.reverse_append, List.reverse_cons, List.reverse_nil, List.nil_append,
        List.cons_append]
      refine .cons ?_ this
      have e : A ++ (B ++ [Tine.lower l, Tine.upper u]) =
          ((A ++ B) ++ [Tine.lower l]) ++ [Tine.upper u] := by simp
      rw [e]
      cases dbg <;> simp [TineIter.nextBack, TineIter.nextBackWith, bind, Except.bind, dassert,
          Tine.isUpperBound, Tine.isLowerBound, Tine.isPointExclude, Tine.intoInner]

/-- The last element of a list with a property. -/
theorem last_with {β : Type} (P : β → Prop) [DecidablePred P] :
    ∀ l : List β, (∃ x ∈ l, P x) → ∃ A x R, l = A ++ x :: R ∧ P x ∧ ∀ y ∈ R, ¬ P y := by
  intro l
  induction l with
  | nil => simp
  | cons a l ih =>
    rintro ⟨x, hx, hp⟩
    by_cases h : ∃ y ∈ l, P y
    · obtain ⟨A, y, R, rfl, h1, h2⟩ := ih h
      exact ⟨a :: A, y, R, rfl, h1, h2⟩
    · rcases List.mem_cons.1 hx with rfl | hx
      · exact ⟨[], x, l, rfl, hp, by simpa using h⟩
      · exact absurd ⟨x, hx, hp⟩ h

/-- What happens at the last hole of a tree: everything behind it is walked, the piece behind it is
yielded, and then the tine before the hole is taken for an upper end. -/
theorem back_hole (dbg : Bool) {t : TineTree α} (v : Valid t) (hh : ¬ HoleFree t) :
    ∃ (Q is : List (RawInterval α)) (p : α) (x : Tine α) (it : TineIter α),
      x ∈ t ∧ x.isLowerBound = true ∧ x.key < Key.fin p ∧
      pieces none t = Q ++ RawInterval.new x.intoInner (.excl p) :: is.reverse ∧
      Backs dbg (TineIter.start t) is it ∧
      ∀ o it', it.nextBack dbg = .ok (o, it') →
        ∃ l, o = some (RawInterval.new l x.intoInner) ∧ (dbg = true → x.isUpperBound = true) := by
  have hex : ∃ x ∈ t, x.isPointExclude = true := by
    by_contra h
    refine hh fun x hx => ?_
    rw [Bool.eq_false_iff]
    exact fun e => h ⟨x, hx, e⟩
  obtain ⟨A, y, R, rfl, hy, hR⟩ := last_with (fun x : Tine α => x.isPointExclude = true) t hex
  rcases y with b | (p | p | _) | b <;> simp [Tine.isPointExclude] at hy
  obtain ⟨m, c1, c2, c3⟩ := chain_append.1 v.2
  simp only [Tine.isUpperBound, Tine.isLowerBound] at c2 c3
  subst c2
  have hok := v.1.1
  rcases R with _ | ⟨z, R⟩
  · simp [Chain] at c3
  obtain ⟨c4, c5⟩ := c3
  have hz := hR z (by simp)
  have hz' := hok z (by simp)
  rcases z with b | (q | q | _) | u <;>
    simp [Tine.isUpperBound, Tine.isPointExclude] at c4 hz
  simp only [Tine.isLowerBound] at c5
  rcases List.eq_nil_or_concat A with rfl | ⟨A, x, rfl⟩
  · simp [Chain] at c1
  rw [List.concat_eq_append] at *
  have hc1 := c1
  obtain ⟨m, c6, c7, c8⟩ := chain_append.1 c1
  simp only [Chain] at c7 c8
  have hfR : HoleFree R := fun w hw => by
    rw [Bool.eq_false_iff]; exact hR w (by simp [hw])
  have hokR : ∀ w ∈ R, w.Ok := fun w hw => hok w (by simp [hw])
  have hokA : ∀ w ∈ A ++ [x], w.Ok := fun w hw => hok w (by simp at hw ⊢; tauto)
  have hx : x.Ok := hok x (by simp)
  obtain ⟨Q, hQ⟩ := (pieces_last (.excl p) x c8 hokA).1 hc1
  have hkey : x.key < Key.fin p :=
    (sorted_append.1 v.1).2.2 x (by simp) (.point (.excl p)) (by simp)
  have hsplit : pieces none (A ++ [x] ++ .point (.excl p) :: .upper u :: R) =
      pieces none (A ++ [x, .upper (.excl p)]) ++ RawInterval.new (.excl p) u :: pieces none R := by
    have key : ∀ (B : List (Tine α)) (sv : Option (Bound α)), (∀ w ∈ B, w.Ok) →
        Chain sv.isSome B true →
        pieces sv (B ++ .point (.excl p) :: .upper u :: R) =
          pieces sv (B ++ [.upper (.excl p)]) ++ RawInterval.new (.excl p) u :: pieces none R := by
      intro B
      induction B with
      | nil =>
        intro sv _ hc
        rcases sv with _ | b
        · simp [Chain] at hc
        · simp [pieces]
      | cons w B ih =>
        intro sv hB hc
        have h0 := hB w (by simp)
        obtain ⟨g1, g2⟩ := hc
        have hB' : ∀ w ∈ B, w.Ok := fun w hw => hB w (by simp [hw])
        rcases sv with _ | b <;> rcases w with c | (c | c | _) | c <;>
          simp [Tine.isUpperBound, Tine.isLowerBound] at g1 g2
        · simpa [pieces] using ih (some c) hB' g2
        · simpa [pieces] using ih none hB' g2
        · exact absurd rfl h0
        · simpa [pieces] using ih (some (.excl c)) hB' g2
        · simpa [pieces] using ih none hB' g2
    have := key (A ++ [x]) none hokA hc1
    simpa using this
  refine ⟨Q, (RawInterval.new (.excl p) u :: pieces none R).reverse, p, x,
    ⟨A ++ [x], some (.point (.excl p)), none⟩, by simp, c8, hkey, ?_, ?_, ?_⟩
  · rw [hsplit, hQ]; simp
  · rw [List.reverse_cons]
    have h1 := backs_holeFree dbg hokR hfR c5 (A ++ [x] ++ [.point (.excl p), .upper u])
    have e : A ++ [x] ++ Tine.point (.excl p) :: Tine.upper u :: R =
        A ++ [x] ++ [.point (.excl p), .upper u] ++ R := by simp
    rw [TineIter.start, e]
    refine h1.snoc ?_
    have e : A ++ [x] ++ [Tine.point (.excl p), Tine.upper u] =
        ((A ++ [x]) ++ [Tine.point (.excl p)]) ++ [Tine.upper u] := by simp
    rw [e]
    cases dbg <;> simp [TineIter.nextBack, TineIter.nextBackWith, bind, Except.bind, dassert,
        Tine.isUpperBound, Tine.isLowerBound, Tine.isPointExclude, Tine.intoInner]
  · intro o it' h
    have hne : ∀ q, x ≠ .point (.incl q) := by
      rintro q rfl; simp [Tine.isLowerBound] at c8
    have hl : (A ++ [x]).getLast? = some x := by simp
    have hd : (A ++ [x]).dropLast = A := by simp
    simp only [TineIter.nextBack, hl, hd, bind, Except.bind] at h
    split at h
    · cases h
    · rename_i r hr
      cases h
      unfold TineIter.nextBackWith at hr
      split at hr
      · exact absurd rfl (hne _)
      · simp only [bind, Except.bind] at hr
        have hu : ∀ y, dassert dbg x.isUpperBound = .ok y → dbg = true → x.isUpperBound = true := by
          intro y hy hd
          subst hd
          cases hu : x.isUpperBound with
          | true => rfl
          | false => rw [hu] at hy; cases hy
        split at hr
        · cases hr
        · rename_i y hy
          have hu := hu y hy
          repeat' (split at hr)
          all_goals first | (cases hr; done) | (cases hr; exact ⟨_, rfl, hu⟩)

/-- The upper end of a raw interval made by `new` from an excluded one. -/
theorem new_upper {l u : Bound α} {p : α} (h : (RawInterval.new l u).upperBound = some (.excl p)) :
    u = .excl p := by
  rcases l with a | a | _ <;> rcases u with b | b | _ <;>
    simp only [RawInterval.new, RawInterval.mkClosed, RawInterval.mkOpen, RawInterval.mkLeftOpen,
      RawInterval.mkRightOpen] at h <;> (try split at h) <;> (try split at h) <;>
    simp [RawInterval.upperBound] at h <;> simp [h]

theorem new_upper_eq {x : Tine α} {p : α} (hx : x.Ok) (hl : x.isLowerBound = true)
    (h : x.key < Key.fin p) :
    (RawInterval.new x.intoInner (.excl p)).upperBound = some (.excl p) := by
  rcases x with (a | a | _) | (a | a | _) | a <;> simp [Tine.isLowerBound] at hl <;>
    simp [Tine.key] at h <;>
    simp [Tine.intoInner, RawInterval.new, RawInterval.mkClosed, RawInterval.mkOpen,
      RawInterval.mkLeftOpen, RawInterval.mkRightOpen, RawInterval.upperBound, h]

/-- Reverse iteration over a tree with a hole does not yield the intervals of the tree. -/
theorem intervalsBack_ne (dbg : Bool) {t : TineTree α} (v : Valid t) (hh : ¬ HoleFree t) :
    TineTree.intervalsBack dbg t ≠ .ok (pieces none t).reverse := by
  intro h
  obtain ⟨Q, is, p, x, it, h1, h2, h3, h4, h5, h6⟩ := back_hole dbg v hh
  unfold TineTree.intervalsBack TineIter.collectBack at h
  have hlen : is.length < t.length := by
    have := pieces_length (ts := t) none
    rw [h4] at this
    simp at this
    omega
  obtain ⟨n, hn⟩ : ∃ n, (TineIter.start t).size = (n + 1) + is.length :=
    ⟨2 * t.length + 1 - is.length, by simp [TineIter.size, TineIter.start]; omega⟩
  rw [hn, h5.collect] at h
  simp only [TineIter.collectBackAux, bind, Except.bind] at h
  cases e : it.nextBack dbg with
  | error => rw [e] at h; cases h
  | ok r =>
    obtain ⟨o, it'⟩ := r
    obtain ⟨l, rfl, hxu⟩ := h6 _ _ e
    rw [e] at h
    obtain ⟨r', hr⟩ := collectBackAux_prefix h
    rw [h4] at hr
    simp at hr
    have := hr.1
    have h7 := new_upper_eq (v.1.1 x h1) h2 h3
    rw [this] at h7
    have h8 := new_upper h7
    rcases x with (a | a | _) | (a | a | _) | a <;> simp [Tine.isLowerBound] at h2 <;>
      simp [Tine.key] at h3 <;> simp [Tine.intoInner] at h8 <;> subst h8 <;> simp at h3

end TT

namespace Selection
variable {α : Type} [LinearOrder α] [Finite α] [LawfulFinite α]
open TT

theorem _root_.NI.TT.Backs.sel {dbg : Bool} {it it1 : TineIter α} {is : List (RawInterval α)}
    (h : Backs dbg it is it1) (n : Nat) (acc : List (Interval α)) :
    intervalsBackAux dbg (n + is.length) it acc = intervalsBackAux dbg n it1 (acc ++ is.map run) := by
  induction h generalizing acc with
  | nil => simp
  | @cons it it1 it2 i is h0 _ ih =>
    have e : n + (i :: is).length = (n + is.length) + 1 := by simp; omega
    rw [e]
    simp only [intervalsBackAux, intervalNextBack, h0, bind, Except.bind, Option.map_some, run_eq, ih]
    simp

theorem intervalsBackAux_prefix {dbg : Bool} {n : Nat} {it : TineIter α}
    {acc r : List (Interval α)} (h : intervalsBackAux dbg n it acc = .ok r) :
    ∃ r', r = acc ++ r' := by
  induction n generalizing it acc with
  | zero => cases h; exact ⟨[], by simp⟩
  | succ n ih =>
    simp only [intervalsBackAux, bind, Except.bind] at h
    split at h
    · cases h
    · split at h
      · cases h; exact ⟨[], by simp⟩
      · obtain ⟨r', rfl⟩ := ih h
        exact ⟨_, List.append_assoc _ _ _⟩

/-- The interval yielded after a hole ends elsewhere. -/
theorem back_wrong {x : Tine α} {p : α} {l : Bound α} (hk : x.key < Key.fin p)
    (ho : ∀ q, x.intoInner ≠ .incl q) {m : α}
    (h1 : IsGreatest (run (RawInterval.new x.intoInner (.excl p))).pts m) :
    ¬ IsGreatest (run (RawInterval.new l x.intoInner)).pts m := by
  rw [run_pts] at h1 ⊢
  rintro ⟨h3, h4⟩
  have h2 := h1.1
  simp only [Set.mem_ofPred_eq] at h2 h3
  rcases hx : x.intoInner with a | a | _
  · exact ho a hx
  · rw [hx] at h2 h3
    have g1 : a < m := by
      simp only [RawInterval.new, RawInterval.mkOpen] at h2
      split at h2 <;> simp [RawInterval.contains] at h2
      exact h2.1
    have g2 : m ≤ a := by
      rcases l with c | c | _ <;> simp only [RawInterval.new, RawInterval.mkOpen,
        RawInterval.mkRightOpen] at h3 <;> (repeat' split at h3) <;>
        simp [RawInterval.contains] at h3 <;> grind
    exact absurd g1 (not_lt.2 g2)
  · rw [hx] at h2 h3 h4
    have h5 : m < p := by simpa [RawInterval.new, RawInterval.contains] using h2
    have := h4 (a := p) (by
      simp only [Set.mem_ofPred_eq]
      rcases l with c | c | _ <;> simp [RawInterval.new, RawInterval.contains] at h3 ⊢
      · exact le_trans h3 h5.le
      · exact lt_trans h3 h5)
    exact absurd (lt_of_lt_of_le h5 this) (lt_irrefl _)

/-- The tine before the last hole of a `DO` tree is exclusive. -/
theorem do_lower {t : TineTree α} (v : Valid t) (h : DO t) {Q R : List (RawInterval α)} {x : Tine α}
    {p : α} (hx : x ∈ t) (hl : x.isLowerBound = true) (hk : x.key < Key.fin p)
    (e : pieces none t = Q ++ RawInterval.new x.intoInner (.excl p) :: R) (q : α) :
    x.intoInner ≠ .incl q := by
  intro hq
  have := (h.open v (i := RawInterval.new x.intoInner (.excl p)) (by rw [e]; simp) q).1
  apply this
  rcases x with (a | a | _) | (a | a | _) | a <;> simp [Tine.isLowerBound, Tine.intoInner] at hl hq <;>
    simp [Tine.key] at hk
  subst hq
  simp [Tine.intoInner, RawInterval.new, RawInterval.mkRightOpen, hk, RawInterval.lowerBound]

theorem intervalsBack_ne (dbg : Bool) {s : Selection α} (v : Valid s.tree) (h : DO s.tree)
    (hh : ¬ HoleFree s.tree) : s.intervalsBack dbg ≠ .ok ((pieces none s.tree).map run).reverse := by
  intro hb
  obtain ⟨Q, is, p, x, it, h1, h2, h3, h4, h5, h6⟩ := back_hole dbg v hh
  unfold intervalsBack at hb
  have hlen : is.length < s.tree.length := by
    have := pieces_length (ts := s.tree) none
    rw [h4] at this
    simp at this
    omega
  obtain ⟨n, hn⟩ : ∃ n, (TineIter.start s.tree).size = (n + 1) + is.length :=
    ⟨2 * s.tree.length + 1 - is.length, by simp [TineIter.size, TineIter.start]; omega⟩
  rw [hn, h5.sel] at hb
  simp only [intervalsBackAux, intervalNextBack, bind, Except.bind] at hb
  cases e : it.nextBack dbg with
  | error => rw [e] at hb; cases hb
  | ok r =>
    obtain ⟨o, it'⟩ := r
    obtain ⟨l, rfl, hxu⟩ := h6 _ _ e
    rw [e] at hb
    simp only [Option.map_some, run_eq] at hb
    obtain ⟨r', hr⟩ := intervalsBackAux_prefix hb
    rw [h4] at hr
    simp at hr
    have hr := hr.1
    have hg := np_good v h.np (RawInterval.new x.intoInner (.excl p)) (by rw [h4]; simp)
    obtain ⟨a, b, hab, hp, -⟩ := hg.cases
    have hm : IsGreatest (run (RawInterval.new x.intoInner (.excl p))).pts b := by
      rw [hp]; exact isGreatest_Icc hab
    exact back_wrong h3 (do_lower v h h1 h2 h3 h4) hm (hr ▸ hm)

/-- The greatest point of a union whose second part lies below the first. -/
theorem greatest_union {A B : Set α} (h : ∀ x ∈ B, ∀ y ∈ A, x < y) {m m' : α}
    (h1 : IsGreatest A m) (h2 : IsGreatest (A ∪ B) m') : m' = m := by
  refine le_antisymm ?_ (h2.2 (.inl h1.1))
  rcases h2.1 with g | g
  · exact h1.2 g
  · exact (h m' g m h1.1).le

theorem drive_back {σ β : Type _} {f g : σ → Except Panic (Option β × σ)} {s s' : σ} {o : Option β}
    (h : g s = .ok (o, s')) (n : Nat) {os : List (Option β)}
    (hd : drive f g s (List.replicate (n + 1) .nextBack) = .ok os) :
    ∃ os', os = o :: os' ∧ drive f g s' (List.replicate n .nextBack) = .ok os' := by
  rw [List.replicate_succ] at hd
  simp only [drive, h, bind, Except.bind] at hd
  split at hd
  · cases hd
  · rename_i os' e
    cases hd
    exact ⟨os', rfl, e⟩

theorem union_sdiff {A B : Set α} (h : ∀ x ∈ B, ∀ y ∈ A, x < y) {m : α} (hm : m ∈ A) :
    (A ∪ B) \ {m} = (A \ {m}) ∪ B := by
  ext x
  simp only [Set.mem_sdiff, Set.mem_union, Set.mem_singleton_iff]
  constructor
  · rintro ⟨h | h, h'⟩
    exacts [.inl ⟨h, h'⟩, .inr h]
  · rintro (⟨h, h'⟩ | h')
    exacts [⟨.inl h, h'⟩, ⟨.inr h', (h x h' m hm).ne⟩]

/-- One correct step from the back. -/
theorem walk_back {A S : Set α} {m : α} (h1 : IsGreatest A m) (h : ∀ x ∈ S, ∀ y ∈ A, x < y)
    {n : Nat} {o : α} {os : List (Option α)}
    (hw : Walk (A ∪ S) (List.replicate (n + 1) .nextBack) (some o :: os)) :
    Walk (A \ {m} ∪ S) (List.replicate n .nextBack) os := by
  rw [List.replicate_succ] at hw
  cases hw with
  | nextBack hm hw =>
    have := greatest_union h h1 hm
    subst this
    rwa [union_sdiff h h1.1] at hw

theorem run_upper_excl {l : Bound α} {q b : α}
    (h : (run (RawInterval.new l (.excl q))).upperBound = some (.incl b)) : b ≤ q := by
  have hp : ∀ q' : α, pred q = some q' → q' ≤ q := fun q' e => (LawfulFinite.pred_some _ _ e).1.le
  rcases l with c | c | _ <;>
    simp only [run, Interval.upperBound, RawInterval.new, RawInterval.mkOpen,
      RawInterval.mkRightOpen] at h <;> (repeat' split at h) <;>
    (try cases hq : pred q) <;> (try cases hc : succ c) <;>
    simp_all [RawInterval.normalized, RawInterval.upperBound]

theorem run_upper_inf {l : Bound α} {b : α}
    (h : (run (RawInterval.new l .inf)).upperBound = some (.incl b)) : b = maximum := by
  rcases l with c | c | _ <;>
    simp only [run, Interval.upperBound, RawInterval.new] at h <;> (try cases hc : succ c) <;>
    simp_all [RawInterval.normalized, RawInterval.upperBound]

variable [WellFoundedLT α]

/-- The point iterator uses up its current interval. -/
theorem exhaust (dbg : Bool) (it : TineIter α) {cur : Interval α} (ho : cur.Obtainable)
    (hr : cur.Real) {S : Set α} (hS : ∀ x ∈ S, ∀ y ∈ cur.pts, x < y) :
    ∃ (m : Nat) (c' : Interval α), c'.nextBack = .ok (none, c') ∧ ∀ k os,
      drive (PointIter.next dbg) (PointIter.nextBack dbg) ⟨it, cur⟩
        (List.replicate (k + m) .nextBack) = .ok os →
      Walk (cur.pts ∪ S) (List.replicate (k + m) .nextBack) os →
      ∃ os', drive (PointIter.next dbg) (PointIter.nextBack dbg) ⟨it, c'⟩
        (List.replicate k .nextBack) = .ok os' ∧ Walk S (List.replicate k .nextBack) os' := by
  have key : ∀ m : α, ∀ cur : Interval α, cur.Obtainable → cur.Real → (∀ x ∈ cur.pts, x ≤ m) →
      (∀ x ∈ S, ∀ y ∈ cur.pts, x < y) → ∃ (m : Nat) (c' : Interval α),
      c'.nextBack = .ok (none, c') ∧ ∀ k os,
      drive (PointIter.next dbg) (PointIter.nextBack dbg) ⟨it, cur⟩
        (List.replicate (k + m) .nextBack) = .ok os →
      Walk (cur.pts ∪ S) (List.replicate (k + m) .nextBack) os →
      ∃ os', drive (PointIter.next dbg) (PointIter.nextBack dbg) ⟨it, c'⟩
        (List.replicate k .nextBack) = .ok os' ∧ Walk S (List.replicate k .nextBack) os' := by
    intro m
    induction m using WellFoundedLT.induction with
    | ind m ih =>
      intro cur ho hr hle hS
      rcases Interval.iter_step ho hr with ⟨he, -, h1⟩ | ⟨-, ⟨g, c', hm, h1, h2, h3, h4⟩⟩
      · refine ⟨0, cur, h1, fun k os hd hw => ⟨os, hd, ?_⟩⟩
        have : cur.pts ∪ S = S := by rw [he]; ext x; simp
        rwa [this] at hw
      · have hS' : ∀ x ∈ S, ∀ y ∈ c'.pts, x < y := fun x hx y hy => hS x hx y (by
          rw [h4] at hy; exact hy.1)
        have step : PointIter.nextBack dbg ⟨it, cur⟩ = .ok (some g, ⟨it, c'⟩) := by
          simp only [PointIter.nextBack, h1, bind, Except.bind]
        by_cases hc : c'.pts = ∅
        · rcases Interval.iter_step h2 h3 with ⟨-, -, h5⟩ | ⟨-, ⟨g', _, hg', -⟩⟩
          · refine ⟨1, c', h5, fun k os hd hw => ?_⟩
            obtain ⟨os', rfl, hd'⟩ := drive_back step k hd
            refine ⟨os', hd', ?_⟩
            have := walk_back hm hS hw
            rw [← h4, hc] at this
            have e : (∅ : Set α) ∪ S = S := by ext x; simp
            rwa [e] at this
          · have := hg'.1; rw [hc] at this; exact absurd this id
        · rcases Interval.iter_step h2 h3 with ⟨h5, -⟩ | ⟨-, ⟨g', _, hg', -⟩⟩
          · exact absurd h5 hc
          have hlt : g' < m := by
            have := hg'.1
            rw [h4] at this
            exact lt_of_lt_of_le (lt_of_le_of_ne (hm.2 this.1) this.2) (hle g hm.1)
          obtain ⟨n, c2, h6, h7⟩ := ih g' hlt c' h2 h3 (fun x hx => hg'.2 hx) hS'
          refine ⟨n + 1, c2, h6, fun k os hd hw => ?_⟩
          obtain ⟨os', rfl, hd'⟩ := drive_back step (k + n) hd
          refine h7 k os' hd' ?_
          have := walk_back (n := k + n) hm hS hw
          rwa [← h4] at this
  rcases Interval.iter_step ho hr with ⟨he, -, h1⟩ | ⟨-, ⟨g, c', hm, h1, h2, h3, h4⟩⟩
  · refine ⟨0, cur, h1, fun k os hd hw => ⟨os, hd, ?_⟩⟩
    have : cur.pts ∪ S = S := by rw [he]; ext x; simp
    rwa [this] at hw
  · exact key g cur ho hr (fun x hx => hm.2 hx) hS

/-- Driving the point iterator from the back through a run of intervals. -/
theorem _root_.NI.TT.Backs.points {dbg : Bool} {it it1 : TineIter α} {is : List (RawInterval α)}
    (h : Backs dbg it is it1) : ∀ {cur : Interval α} {S : Set α}, cur.Obtainable → cur.Real →
    (∀ i ∈ is, Good i) → Inc is.reverse →
    (∀ x ∈ cur.pts, ∀ y ∈ rest is, y < x) → (∀ x ∈ S, ∀ y ∈ cur.pts, x < y) →
    (∀ x ∈ S, ∀ y ∈ rest is, x < y) →
    ∃ (m : Nat) (c' : Interval α), c'.nextBack = .ok (none, c') ∧ ∀ k os,
      drive (PointIter.next dbg) (PointIter.nextBack dbg) ⟨it, cur⟩
        (List.replicate (k + m) .nextBack) = .ok os →
      Walk (cur.pts ∪ (rest is ∪ S)) (List.replicate (k + m) .nextBack) os →
      ∃ os', drive (PointIter.next dbg) (PointIter.nextBack dbg) ⟨it1, c'⟩
        (List.replicate k .nextBack) = .ok os' ∧ Walk S (List.replicate k .nextBack) os' := by
  induction h with
  | nil it =>
    intro cur S ho hr _ _ _ hS _
    obtain ⟨m, c', h1, h2⟩ := exhaust dbg it ho hr hS
    refine ⟨m, c', h1, fun k os hd hw => h2 k os hd ?_⟩
    have : rest ([] : List (RawInterval α)) ∪ S = S := by ext x; simp [rest]
    rwa [this] at hw
  | @cons it it1 it2 i is h0 _ ih =>
    intro cur S ho hr hg hi hlt hS1 hS2
    obtain ⟨g1, g2, g3⟩ := (hg i (by simp)).run_ok
    rcases Interval.iter_step g1 g2 with ⟨z, -⟩ | ⟨-, ⟨g, c', hm, j1, j2, j3, j4⟩⟩
    · rw [z] at g3; exact absurd g3 (by simp)
    have hSA : ∀ x ∈ rest (i :: is) ∪ S, ∀ y ∈ cur.pts, x < y := by
      rintro x (hx | hx) y hy
      · exact hlt y hy x hx
      · exact hS1 x hx y hy
    obtain ⟨m1, c1, h1, h2⟩ := exhaust dbg it ho hr hSA
    rw [List.reverse_cons, Inc, List.pairwise_append] at hi
    have hrun : ∀ y ∈ (run i).pts, y ∈ rest (i :: is) := by
      rw [run_pts]; exact fun y hy => ⟨i, by simp, hy⟩
    have hrest : ∀ y ∈ rest is, y ∈ rest (i :: is) := by
      rintro y ⟨j, hj, hy⟩; exact ⟨j, by simp [hj], hy⟩
    have hbelow : ∀ x ∈ rest is ∪ S, ∀ y ∈ (run i).pts, x < y := by
      rintro x (⟨j, hj, hx⟩ | hx) y hy
      · rw [run_pts] at hy
        exact hi.2.2 j (by simpa using hj) i (by simp) x y hx hy
      · exact hS2 x hx y (hrun y hy)
    have hc' : ∀ y ∈ c'.pts, y ∈ (run i).pts := fun y hy => by rw [j4] at hy; exact hy.1
    obtain ⟨m2, c2, h3, h4⟩ := ih (cur := c') (S := S) j2 j3 (fun j hj => hg j (by simp [hj])) hi.1
      (fun x hx y hy => hbelow y (.inl hy) x (hc' x hx))
      (fun x hx y hy => hbelow x (.inr hx) y (hc' y hy))
      (fun x hx y hy => hS2 x hx y (hrest y hy))
    refine ⟨m2 + 1 + m1, c2, h3, fun k os hd hw => ?_⟩
    rw [show k + (m2 + 1 + m1) = (k + m2 + 1) + m1 by omega] at hd hw
    obtain ⟨os1, hd1, hw1⟩ := h2 (k + m2 + 1) os hd hw
    have step : PointIter.nextBack dbg ⟨it, c1⟩ = .ok (some g, ⟨it1, c'⟩) := by
      simp only [PointIter.nextBack, h1, intervalNextBack, h0, bind, Except.bind, Option.map_some,
        run_eq, j1]
    obtain ⟨os2, rfl, hd2⟩ := drive_back step (k + m2) hd1
    refine h4 k os2 hd2 ?_
    have e : rest (i :: is) ∪ S = (run i).pts ∪ (rest is ∪ S) := by
      rw [run_pts]; ext x; simp [rest, or_assoc]
    rw [e] at hw1
    have := walk_back hm hbelow hw1
    rwa [← j4] at this

/-- Iterating from the back over a selection with a hole goes wrong. -/
theorem points_back_ne (dbg : Bool) {s : Selection α} (v : Valid s.tree)
    (hg : ∀ i ∈ pieces none s.tree, Good i) (h : DO s.tree ∨ dbg = true) (hh : ¬ HoleFree s.tree) : ¬ ∀ n, ∃ os,
      drive (PointIter.next dbg) (PointIter.nextBack dbg) (PointIter.start s)
        (List.replicate n .nextBack) = .ok os ∧
      Walk (s.pts dbg) (List.replicate n .nextBack) os := by
  intro hall
  obtain ⟨Q, is, p, x, it, h1, h2, h3, h4, h5, h6⟩ := back_hole dbg v hh
  set j := RawInterval.new x.intoInner (.excl p) with hj
  have hinc := pieces_inc v
  rw [h4] at hinc
  have hinc' : Inc ((Q ++ [j]) ++ is.reverse) := by simpa using hinc
  have hi2 := List.pairwise_append.1 hinc'
  have hgj := hg j (by rw [h4]; simp)
  have hpts : (Interval.empty : Interval α).pts ∪ (rest is ∪ rest (Q ++ [j])) = s.pts dbg := by
    rw [← rest_pieces dbg v, h4]
    ext y
    simp only [Set.mem_union, rest, Set.mem_ofPred_eq, List.mem_append, List.mem_cons,
      List.mem_reverse, List.mem_singleton]
    constructor
    · rintro (h | ⟨i, hi, h⟩ | ⟨i, hi, h⟩)
      · cases h
      · exact ⟨i, by tauto, h⟩
      · exact ⟨i, by simp at hi; tauto, h⟩
    · rintro ⟨i, hi, h⟩
      right
      rcases hi with hi | hi | hi
      · exact .inr ⟨i, by simp [hi], h⟩
      · exact .inr ⟨i, by simp [hi], h⟩
      · exact .inl ⟨i, hi, h⟩
  obtain ⟨m, c', k1, k2⟩ := h5.points (cur := .empty) (S := rest (Q ++ [j])) .empty (.inl rfl)
    (fun i hi => hg i (by rw [h4]; simp [hi])) hi2.2.1 (fun y hy => by cases hy)
    (fun y hy z hz => by cases hz)
    (by
      rintro y ⟨i, hi, hy⟩ z ⟨i', hi', hz⟩
      exact hi2.2.2 i hi i' (by simpa using hi') y z hy hz)
  obtain ⟨os, hd, hw⟩ := hall (1 + m)
  rw [← hpts] at hw
  obtain ⟨os', hd', hw'⟩ := k2 1 os hd hw
  obtain ⟨a, b, hab, hp, -⟩ := hgj.cases
  have hm : IsGreatest (run j).pts b := by rw [hp]; exact isGreatest_Icc hab
  have hbm : IsGreatest (rest (Q ++ [j])) b := by
    refine ⟨⟨j, by simp, by have := hm.1; rwa [run_pts] at this⟩, ?_⟩
    rintro y ⟨i, hi, hy⟩
    rcases List.mem_append.1 hi with hi | hi
    · have := (List.pairwise_append.1 hi2.1).2.2 i hi j (by simp) y b hy
        (by have := hm.1; rwa [run_pts] at this)
      exact this.le
    · simp at hi; subst hi
      exact hm.2 (by rw [run_pts]; exact hy)
  simp only [List.replicate_one, drive, PointIter.nextBack, k1, intervalNextBack, bind,
    Except.bind] at hd'
  cases e : it.nextBack dbg with
  | error => rw [e] at hd'; cases hd'
  | ok r =>
    obtain ⟨o, it'⟩ := r
    obtain ⟨l, rfl, hxu⟩ := h6 _ _ e
    rw [e] at hd'
    simp only [Option.map_some, run_eq] at hd'
    cases e2 : (run (RawInterval.new l x.intoInner)).nextBack with
    | error => rw [e2] at hd'; cases hd'
    | ok r =>
      obtain ⟨o, c2⟩ := r
      rw [e2] at hd'
      cases hd'
      rw [List.replicate_one] at hw'
      cases hw' with
      | done hS =>
        have := hbm.1; rw [hS] at this; exact absurd this id
      | @nextBack _ m _ _ hg2 =>
        have := hg2.unique hbm
        subst this
        have hu : (run (RawInterval.new l x.intoInner)).upperBound = some (.incl m) := by
          simp only [Interval.nextBack] at e2
          split at e2 <;> cases e2
          assumption
        have hb : j.contains m = true := by have := hm.1; rwa [run_pts] at this
        rcases hx : x.intoInner with q | q | _
        · rcases h with h | h
          · exact do_lower v h h1 h2 h3 h4 q hx
          · have := hxu h
            rcases x with (a | a | _) | (a | a | _) | a <;>
              simp [Tine.isLowerBound, Tine.isUpperBound, Tine.intoInner] at h2 this hx
        · rw [hx] at hu
          have := run_upper_excl hu
          rw [hj, hx] at hb
          simp only [RawInterval.new, RawInterval.mkOpen] at hb
          split at hb <;> simp [RawInterval.contains] at hb
          exact absurd hb.1 (not_lt.2 this)
        · rw [hx] at hu
          have := run_upper_inf hu
          subst this
          rw [hj, hx] at hb
          simp [RawInterval.new, RawInterval.contains] at hb
          exact absurd (lt_of_lt_of_le hb (LawfulFinite.le_max p)) (lt_irrefl _)

end Selection
end NI
