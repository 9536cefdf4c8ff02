import Mathlib.Data.Nat.Find
import Verif.SpecLevels
import Verif.Lemmas.Spot
import Verif.Props.Algebra
import Verif.Props.Clip

/-! # Counting how many intervals cover a value, by a pile of selections (C142) -/

namespace NI
open _root_.NI.Finite TT
variable {α : Type} [LinearOrder α] [Finite α] [LawfulFinite α]

namespace Selection

theorem bothByComplements_ok (dbg : Bool) {a b : Selection α} (ha : a.Reachable) (hb : b.Reachable) :
    ∃ s, a.bothByComplements dbg b = .ok s ∧ s.Reachable ∧
      ∀ aft k, RealPos aft k → tcov s.tree aft k = (tcov a.tree aft k && tcov b.tree aft k) := by
  obtain ⟨a', e1, v1, c1⟩ := complement_ok dbg (reachable_valid ha)
  obtain ⟨b', e2, v2, c2⟩ := complement_ok dbg (reachable_valid hb)
  obtain ⟨u, e3, v3, c3⟩ := union_ok dbg v1 v2
  obtain ⟨s, e4, v4, c4⟩ := complement_ok dbg v3
  refine ⟨s, ?_, .complement (.union (.complement ha e1) (.complement hb e2) e3) e4, fun aft k h => ?_⟩
  · simp only [bothByComplements, e1, e2, bind, Except.bind, e3, e4]
  · rw [c4 _ _ h, c3, c1 _ _ h, c2 _ _ h, Bool.not_or, Bool.not_not, Bool.not_not]

/-- What one more selection does to the pile, at one place of the trees: `n` selections of the pile (with those taken
off, `d` in number) cover the place; `b` says whether the new one does. -/
theorem pileOn_ok (dbg : Bool) {both : Selection α → Selection α → Except Panic (Selection α)} {P : Selection α → Prop}
    {R : Bool → Key α → Prop} (hP : ∀ s, P s → s.Reachable)
    (hU : ∀ a b u, P a → P b → a.union dbg b = .ok u → P u)
    (hB : ∀ a b, P a → P b → ∃ s, both a b = .ok s ∧ P s ∧
      ∀ aft k, R aft k → tcov s.tree aft k = (tcov a.tree aft k && tcov b.tree aft k))
    (ss : List (Selection α)) (c : Selection α) (hs : ∀ s ∈ ss, P s)
    (hc : P c) : ∃ ss', pileOn both dbg ss c = .ok ss' ∧ ss'.length = ss.length + 1 ∧
      (∀ s ∈ ss', P s) ∧ ∀ aft k, R aft k → ∀ (b : Bool) (d n : Nat), n ≤ d + ss.length →
        (∀ j s, ss[j]? = some s → tcov s.tree aft k = decide (d + j < n)) → tcov c.tree aft k = (b && decide (d ≤ n)) →
        ∀ j s, ss'[j]? = some s → tcov s.tree aft k = decide (d + j < n + b.toNat) := by
  induction ss generalizing c with
  | nil =>
    refine ⟨[c], rfl, rfl, by simpa using hc, fun aft k _ b d n hn _ h2 j s hj => ?_⟩
    cases j with
    | succ j => simp at hj
    | zero =>
      cases hj
      rw [h2]
      simp only [List.length_nil, Nat.add_zero] at hn
      cases b
      · simp [hn]
      · simp
  | cons s ss ih =>
    have rs := hs s (.head _)
    obtain ⟨m, e1, r1, c1⟩ := hB s c rs hc
    obtain ⟨u, e2, v2, c2⟩ := union_ok dbg (reachable_valid (hP _ rs)) (reachable_valid (hP _ hc))
    obtain ⟨ss', e3, l3, r3, c3⟩ := ih m (fun t ht => hs t (.tail _ ht)) r1
    refine ⟨u :: ss', by simp only [pileOn, e1, e2, e3, bind, Except.bind]; rfl, by simp [l3], ?_, ?_⟩
    · intro t ht
      rcases List.mem_cons.1 ht with rfl | ht
      exacts [hU _ _ _ rs hc e2, r3 t ht]
    · intro aft k hr b d n hn h1 h2 j t hj
      have h0 := h1 0 s rfl
      cases j with
      | zero =>
        cases hj
        rw [c2, h0, h2]
        cases b
        · simp
        · by_cases hd : d < n <;> simp [hd]; omega
      | succ j =>
        have := c3 aft k hr b (d + 1) n (by simp only [List.length_cons] at hn; omega) (fun i q hq => by
          rw [h1 (i + 1) q (by simpa using hq)]; congr 1; simp; omega) (by
          rw [c1 _ _ hr, h0, h2]
          cases b
          · simp
          · by_cases hd : d < n <;> simp [hd]; omega) j t (by simpa using hj)
        rw [this]; congr 1; simp; omega

theorem pile_ok (dbg : Bool) {both : Selection α → Selection α → Except Panic (Selection α)} {P : Selection α → Prop}
    {R : Bool → Key α → Prop} (hP : ∀ s, P s → s.Reachable)
    (hU : ∀ a b u, P a → P b → a.union dbg b = .ok u → P u)
    (hB : ∀ a b, P a → P b → ∃ s, both a b = .ok s ∧ P s ∧
      ∀ aft k, R aft k → tcov s.tree aft k = (tcov a.tree aft k && tcov b.tree aft k))
    (is : List (Interval α)) (hi : ∀ i ∈ is, P (ofInterval i)) :
    ∃ ss, pile both dbg is = .ok ss ∧ ss.length = is.length ∧ (∀ s ∈ ss, P s) ∧
      ∀ aft k, R aft k → ∀ j s, ss[j]? = some s →
        tcov s.tree aft k = decide (j < is.countP fun i => tcov (ofInterval i).tree aft k) := by
  induction is using List.reverseRecOn with
  | nil => exact ⟨[], rfl, rfl, by simp, by simp⟩
  | append_singleton is i ih =>
    obtain ⟨ss, e, l, r, c⟩ := ih fun j hj => hi j (by simp [hj])
    obtain ⟨ss', e', l', r', c'⟩ := pileOn_ok dbg hP hU hB ss (ofInterval i) r (hi i (by simp))
    refine ⟨ss', ?_, by simp [l', l], r', fun aft k hr j s hj => ?_⟩
    · rw [pile] at e ⊢
      rw [List.foldlM_append, e]
      simp only [bind, Except.bind, List.foldlM, e']
      rfl
    · rw [c' aft k hr (tcov (ofInterval i).tree aft k) 0 (is.countP fun i => tcov (ofInterval i).tree aft k)
        (by rw [l, Nat.zero_add]; exact List.countP_le_length) (fun j s h => by rw [c aft k hr j s h, Nat.zero_add])
        (by simp) j s hj, List.countP_append, Nat.zero_add]
      cases h : tcov (ofInterval i).tree aft k <;> simp [h]

theorem countP_at {is : List (Interval α)} (hi : ∀ i ∈ is, i.Obtainable) (x : α) :
    (is.countP fun i => tcov (ofInterval i).tree false (.fin x)) = covering is x :=
  List.countP_congr fun i h => by
    rw [ofInterval_tree (hi i h), show tcov _ false (.fin x) = i.contains x from ic_fin (hi i h) x]

theorem pile_complements (dbg : Bool) (is : List (Interval α)) (hi : ∀ i ∈ is, i.Obtainable) :
    ∃ ss, pile (bothByComplements dbg) dbg is = .ok ss ∧ ss.length = is.length ∧ (∀ s ∈ ss, s.Reachable) ∧
      ∀ aft k, RealPos aft k → ∀ j s, ss[j]? = some s →
        tcov s.tree aft k = decide (j < is.countP fun i => tcov (ofInterval i).tree aft k) :=
  pile_ok dbg (fun _ h => h) (fun _ _ _ ha hb e => .union ha hb e) (fun _ _ ha hb => bothByComplements_ok dbg ha hb) is
    fun i h => .ofInterval (hi i h)

/-- Empty means that no place is covered. -/
theorem empty_cov {s : Selection α} (h : s.Reachable) :
    s.isEmpty = true ↔ ∀ aft k, RealPos aft k → tcov s.tree aft k = false := by
  rw [isEmpty_iff]
  refine ⟨?_, fun hc => reachable_ext h .new fun aft k hr => by rw [hc _ _ hr]; rfl⟩
  rintro rfl aft k _
  rfl

theorem bothByIntervals_ok (dbg : Bool) {a b : Selection α} (ha : a.Reachable) (hb : b.Reachable) :
    ∃ s, a.bothByIntervals dbg b = .ok s ∧ s.UnionBuilt ∧
      ∀ x, at' s.tree x = (at' a.tree x && at' b.tree x) := by
  obtain ⟨as, e1, o1, -, c1⟩ := C56_cover_partial dbg a ha
  obtain ⟨bs, e2, o2, -, c2⟩ := C56_cover_partial dbg b hb
  have ho : ∀ m ∈ as.flatMap fun i => bs.map fun j => i.intersect j, m.Obtainable ∧ m.Real := by
    intro m hm
    obtain ⟨i, hi, hm⟩ := List.mem_flatMap.1 hm
    obtain ⟨j, hj, rfl⟩ := List.mem_map.1 hm
    refine ⟨.intersect (o1 i hi) (o2 j hj), ?_⟩
    rcases Interval.tight_intersect (o1 i hi) (o2 j hj) with h | ⟨p, h⟩ | ⟨l, u, h, hlu⟩ <;> rw [h]
    · exact .inl rfl
    · exact .inr ⟨p, by simp [Interval.contains, RawInterval.contains]⟩
    · exact .inr ⟨l, by simp [Interval.contains, RawInterval.contains, hlu.le]⟩
  obtain ⟨s, e3, r3, c3⟩ := C48_from_intervals dbg _ fun m hm => (ho m hm).1
  refine ⟨s, by simp only [bothByIntervals, e1, e2, bind, Except.bind]; exact e3, .fromIntervals ho e3, fun x => ?_⟩
  rw [Bool.eq_iff_iff, Bool.and_eq_true, ← mem_pts dbg (reachable_valid r3), ← mem_pts dbg (reachable_valid ha),
    ← mem_pts dbg (reachable_valid hb), c3, c1, c2]
  constructor
  · rintro ⟨m, hm, hx⟩
    obtain ⟨i, hi, hm⟩ := List.mem_flatMap.1 hm
    obtain ⟨j, hj, rfl⟩ := List.mem_map.1 hm
    rw [Interval.pts_intersect] at hx
    exact ⟨⟨i, hi, hx.1⟩, j, hj, hx.2⟩
  · rintro ⟨⟨i, hi, h1⟩, j, hj, h2⟩
    exact ⟨i.intersect j, List.mem_flatMap.2 ⟨i, hi, List.mem_map.2 ⟨j, hj, rfl⟩⟩, by
      rw [Interval.pts_intersect]; exact ⟨h1, h2⟩⟩

end Selection

/-- **C142.**  Counting by a pile of selections, the common part by complements: for any intervals the pile is as high
as there are intervals, and the selection number `k` (from 0) has the values that more than `k` of them contain. -/
theorem C142_complements (dbg : Bool) (is : List (Interval α)) (hi : ∀ i ∈ is, i.Obtainable) :
    ∃ ss, Selection.pile (Selection.bothByComplements dbg) dbg is = .ok ss ∧ ss.length = is.length ∧
      ∀ (k : Nat) (s : Selection α), ss[k]? = some s →
        s.Reachable ∧ ∀ x, s.contains dbg x = .ok (decide (k < covering is x)) := by
  obtain ⟨ss, e, l, r, c⟩ := Selection.pile_complements dbg is hi
  refine ⟨ss, e, l, fun k s hk => ⟨r s (List.mem_of_getElem? hk), fun x => ?_⟩⟩
  rw [Selection.contains_ok dbg (Selection.reachable_valid (r s (List.mem_of_getElem? hk)))]
  exact congrArg _ ((c false (.fin x) ⟨by simp, by simp⟩ k s hk).trans (by rw [Selection.countP_at hi]))

/-- With the complements, `is_empty` of the selection number `k` does not say that no value is in more than `k` of the
intervals: it says that no two neighbours are reached by more than `k` of them together. -/
theorem C142_complements_empty (dbg : Bool) (is : List (Interval α)) (hi : ∀ i ∈ is, i.Obtainable ∧ i.Real)
    (ss : List (Selection α)) (he : Selection.pile (Selection.bothByComplements dbg) dbg is = .ok ss) (k : Nat)
    (s : Selection α) (hs : ss[k]? = some s) :
    s.isEmpty = true ↔ ∀ x y, (y = x ∨ succ x = some y) → (is.countP fun i => i.contains x || i.contains y) ≤ k := by
  obtain ⟨ss', e, l, r, c⟩ := Selection.pile_complements dbg is fun i h => (hi i h).1
  cases he.symm.trans e
  have ha : ∀ i ∈ is, ∀ x, at' (Selection.ofInterval i).tree x = i.contains x := fun i h x => by
    rw [Selection.ofInterval_tree (hi i h).1]; exact Selection.ic_fin (hi i h).1 x
  have hd : ∀ i ∈ is, DO (Selection.ofInterval i).tree := fun i h => (Selection.UnionBuilt.ofInterval (hi i h).1 (hi i h).2).do
  rw [Selection.empty_cov (r s (List.mem_of_getElem? hs))]
  have one : ∀ aft (q : Key α) (f : Interval α → Bool), RealPos aft q →
      (∀ i ∈ is, tcov (Selection.ofInterval i).tree aft q = f i) →
      (tcov s.tree aft q = false ↔ is.countP f ≤ k) := fun aft q f hr hf => by
    rw [c aft q hr k s hs, decide_eq_false_iff_not, not_lt, List.countP_congr fun i h => by rw [hf i h]]
  constructor
  · intro h x y hxy
    rcases hxy with e | hy
    · subst e
      rw [← one false (.fin _) _ ⟨by simp, by simp⟩ fun i h => by rw [Bool.or_self]; exact ha i h _]
      exact h _ _ ⟨by simp, by simp⟩
    · rw [← one true (.fin x) _ ⟨by simp, by simp⟩ fun i h => by rw [(hd i h).1, hy, ha i h]; exact congrArg _ (ha i h y)]
      exact h _ _ ⟨by simp, by simp⟩
  · intro h aft q hr
    have same : ∀ x, is.countP (fun i => i.contains x) ≤ k := fun x => by simpa using h x x (.inl rfl)
    cases q with
    | top => exact absurd rfl hr.1
    | bot =>
      cases hr.2 rfl
      exact (one _ _ _ hr fun i h => (hd i h).2.trans (ha i h _)).2 (same _)
    | fin x =>
      cases aft with
      | false => exact (one _ _ _ hr fun i h => ha i h x).2 (same x)
      | true =>
        cases hy : succ x with
        | none => exact (one _ _ _ hr fun i h => by rw [(hd i h).1, hy, ha i h]; simp).2 (same x)
        | some y =>
          exact (one _ _ _ hr fun i h => by rw [(hd i h).1, hy, ha i h]; exact congrArg _ (ha i h y)).2 (h x y (.inr hy))

/-- With the common parts of the listed intervals, the selections have the right values too, and `is_empty` is right. -/
theorem C142_intervals (dbg : Bool) (is : List (Interval α)) (hi : ∀ i ∈ is, i.Obtainable ∧ i.Real) :
    ∃ ss, Selection.pile (Selection.bothByIntervals dbg) dbg is = .ok ss ∧ ss.length = is.length ∧
      ∀ (k : Nat) (s : Selection α), ss[k]? = some s →
        s.UnionBuilt ∧ (∀ x, s.contains dbg x = .ok (decide (k < covering is x))) ∧
        (s.isEmpty = true ↔ ∀ x, covering is x ≤ k) := by
  obtain ⟨ss, e, l, r, c⟩ := Selection.pile_ok (R := fun aft k => aft = false ∧ ∃ x, k = .fin x) dbg
    (both := Selection.bothByIntervals dbg) (fun _ h => Selection.UnionBuilt.reachable h) (fun _ _ _ ha hb e => .union ha hb e)
    (fun a b ha hb => by
      obtain ⟨s, e, h, c⟩ := Selection.bothByIntervals_ok dbg ha.reachable hb.reachable
      refine ⟨s, e, h, ?_⟩
      rintro _ _ ⟨rfl, x, rfl⟩
      exact c x) is fun i h => .ofInterval (hi i h).1 (hi i h).2
  refine ⟨ss, e, l, fun k s hk => ?_⟩
  have u := r s (List.mem_of_getElem? hk)
  have v := Selection.reachable_valid u.reachable
  have hc : ∀ x, s.contains dbg x = .ok (decide (k < covering is x)) := fun x => by
    rw [Selection.contains_ok dbg v]
    exact congrArg _ ((c false (.fin x) ⟨rfl, x, rfl⟩ k s hk).trans (by rw [Selection.countP_at fun i h => (hi i h).1]))
  refine ⟨u, hc, ?_⟩
  rw [C54_is_empty_partial dbg s (.tidy (.inl u)), Set.eq_empty_iff_forall_notMem]
  refine forall_congr' fun x => ?_
  rw [Selection.mem_pts dbg v, ← not_lt, not_iff_not]
  have := hc x
  rw [Selection.contains_ok dbg v] at this
  injection this with this
  rw [this, decide_eq_true_eq]

/-- All selections of the pile but the first are made of common parts. -/
theorem Selection.pileOn_rest (dbg : Bool) (ss : List (Selection α)) (c : Selection α) (ss' : List (Selection α))
    (e : Selection.pileOn (Selection.bothByIntervals dbg) dbg ss c = .ok ss') (hc : c.Reachable)
    (hs : ∀ s ∈ ss, s.Reachable) (ht : ∀ s ∈ ss.tail, s.UnionBuilt) :
    (∀ s ∈ ss'.tail, s.UnionBuilt) ∧ (c.UnionBuilt → (∀ s ∈ ss, s.UnionBuilt) → ∀ s ∈ ss', s.UnionBuilt) := by
  induction ss generalizing c ss' with
  | nil => cases e; exact ⟨by simp, by simp⟩
  | cons s ss ih =>
    obtain ⟨b, e1, u1, -⟩ := Selection.bothByIntervals_ok dbg (hs s (by simp)) hc
    obtain ⟨s', e2, -, -⟩ := Selection.union_ok dbg (Selection.reachable_valid (hs s (by simp))) (Selection.reachable_valid hc)
    simp only [Selection.pileOn, e1, e2, bind, Except.bind] at e
    cases e3 : Selection.pileOn (Selection.bothByIntervals dbg) dbg ss b with
    | error _ => rw [e3] at e; cases e
    | ok tt =>
      rw [e3] at e; cases e
      have := (ih b tt e3 u1.reachable (fun t h => hs t (by simp [h])) fun t h => ht t (List.mem_of_mem_tail h)).2 u1 ht
      refine ⟨this, fun hu ha t h => ?_⟩
      rcases List.mem_cons.1 h with rfl | h
      · exact .union (ha s (by simp)) hu e2
      · exact this t h

/-- The first selection of the pile is the union of the intervals. -/
theorem Selection.pileOn_first (both : Selection α → Selection α → Except Panic (Selection α)) (dbg : Bool)
    (ss : List (Selection α)) (c : Selection α) (ss' : List (Selection α)) (e : Selection.pileOn both dbg ss c = .ok ss')
    (hc : c.Reachable) (hs : ∀ s ∈ ss, s.Reachable) (t : Selection α) (ht : ss'[0]? = some t) (aft : Bool) (k : Key α) :
    tcov t.tree aft k = ((ss[0]?).elim false (fun s => tcov s.tree aft k) || tcov c.tree aft k) := by
  cases ss with
  | nil => cases e; cases ht; rfl
  | cons s ss =>
    obtain ⟨s', e2, -, h⟩ := Selection.union_ok dbg (Selection.reachable_valid (hs s (by simp))) (Selection.reachable_valid hc)
    simp only [Selection.pileOn, e2, bind, Except.bind] at e
    cases e1 : both s c with
    | error _ => rw [e1] at e; cases e
    | ok b =>
      simp only [e1] at e
      cases e3 : Selection.pileOn both dbg ss b with
      | error _ => rw [e3] at e; cases e
      | ok tt =>
        rw [e3] at e; cases e; cases ht
        exact h aft k

theorem Selection.ofInterval_empty {i : Interval α} (hi : i.Obtainable) :
    (Selection.ofInterval i).isEmpty = true ↔ i.isEmpty = true := by
  rw [Selection.isEmpty, TineTree.isEmpty, Selection.ofInterval_tree hi]
  have hn := Interval.obtainable_nf hi
  rcases i with ⟨r⟩
  cases r <;> simp only [RawInterval.NF] at hn <;> simp only [RawInterval.denormalized, Interval.isEmpty, RawInterval.isEmpty]
  case empty => simp [Tine.fromRawInterval]
  case point p => cases h1 : pred p <;> cases h2 : succ p <;> simp [Tine.fromRawInterval]
  case closed l u => cases h1 : pred l <;> cases h2 : succ u <;> simp [Tine.fromRawInterval]

/-- For any intervals, also those without values: the selections have the right values, and `is_empty` is right for all
but the first, which is empty exactly if all intervals are `is_empty`. -/
theorem C142_intervals_any (dbg : Bool) (is : List (Interval α)) (hi : ∀ i ∈ is, i.Obtainable) :
    ∃ ss, Selection.pile (Selection.bothByIntervals dbg) dbg is = .ok ss ∧ ss.length = is.length ∧
      ∀ (k : Nat) (s : Selection α), ss[k]? = some s →
        (∀ x, s.contains dbg x = .ok (decide (k < covering is x))) ∧
        (s.isEmpty = true ↔ if k = 0 then ∀ i ∈ is, i.isEmpty = true else ∀ x, covering is x ≤ k) := by
  obtain ⟨ss, e, l, r, c⟩ := Selection.pile_ok (P := Selection.Reachable) (R := fun aft k => aft = false ∧ ∃ x, k = .fin x) dbg
    (both := Selection.bothByIntervals dbg) (fun _ h => h) (fun _ _ _ ha hb e => .union ha hb e)
    (fun a b ha hb => by
      obtain ⟨s, e, h, c⟩ := Selection.bothByIntervals_ok dbg ha hb
      refine ⟨s, e, h.reachable, ?_⟩
      rintro _ _ ⟨rfl, x, rfl⟩
      exact c x) is fun i h => .ofInterval (hi i h)
  have more : ∀ (is : List (Interval α)), (∀ i ∈ is, i.Obtainable) → ∀ ss : List (Selection α),
      Selection.pile (Selection.bothByIntervals dbg) dbg is = .ok ss → (∀ s ∈ ss, s.Reachable) ∧ (∀ s ∈ ss.tail, s.UnionBuilt) ∧
      ∀ t, ss[0]? = some t → ∀ aft k, tcov t.tree aft k = is.any fun i => tcov (Selection.ofInterval i).tree aft k := by
    intro is
    induction is using List.reverseRecOn with
    | nil => rintro - ss ⟨⟩; exact ⟨by simp, by simp, by simp⟩
    | append_singleton is i ih =>
      intro hi ss he
      rw [Selection.pile, List.foldlM_append] at he
      cases e1 : Selection.pile (Selection.bothByIntervals dbg) dbg is with
      | error _ => rw [Selection.pile] at e1; rw [e1] at he; cases he
      | ok tt =>
        obtain ⟨r0, h1, h2⟩ := ih (fun j hj => hi j (by simp [hj])) tt e1
        have e1' := e1
        rw [Selection.pile] at e1
        rw [e1] at he
        have he : Selection.pileOn (Selection.bothByIntervals dbg) dbg tt (.ofInterval i) = .ok ss := by
          cases e2 : Selection.pileOn (Selection.bothByIntervals dbg) dbg tt (.ofInterval i) <;>
            simp only [bind, Except.bind, List.foldlM, e2] at he
          · cases he
          · exact he
        have ri : (Selection.ofInterval i).Reachable := .ofInterval (hi i (by simp))
        obtain ⟨ss', e', -, r', -⟩ := Selection.pileOn_ok (P := Selection.Reachable) (R := fun _ _ => False) dbg
          (both := Selection.bothByIntervals dbg) (fun _ h => h) (fun _ _ _ ha hb e => .union ha hb e)
          (fun a b ha hb => by
            obtain ⟨s, e, h, c⟩ := Selection.bothByIntervals_ok dbg ha hb
            exact ⟨s, e, h.reachable, fun _ _ h => h.elim⟩) tt (.ofInterval i) r0 ri
        rw [he] at e'; cases e'
        refine ⟨r', (Selection.pileOn_rest dbg tt _ ss he ri r0 h1).1, fun t ht aft k => ?_⟩
        rw [Selection.pileOn_first _ dbg tt _ ss he ri r0 t ht aft k, List.any_append, List.any_cons, List.any_nil, Bool.or_false]
        congr 1
        cases h0 : tt[0]? with
        | some s => exact h2 s h0 aft k
        | none =>
          have : tt = [] := by simpa using h0
          subst this
          obtain ⟨ss2, e2, l2, -⟩ := Selection.pile_ok (P := Selection.Reachable) (R := fun _ _ => False) dbg
            (both := Selection.bothByIntervals dbg) (fun _ h => h) (fun _ _ _ ha hb e => .union ha hb e)
            (fun a b ha hb => by
              obtain ⟨s, e, h, c⟩ := Selection.bothByIntervals_ok dbg ha hb
              exact ⟨s, e, h.reachable, fun _ _ h => h.elim⟩) is fun j hj => .ofInterval (hi j (by simp [hj]))
          rw [e1'] at e2; cases e2
          have : is = [] := List.length_eq_zero_iff.1 l2.symm
          subst this
          rfl
  obtain ⟨-, m1, m2⟩ := more is hi ss e
  refine ⟨ss, e, l, fun k s hk => ?_⟩
  have rs := r s (List.mem_of_getElem? hk)
  have v := Selection.reachable_valid rs
  have hc : ∀ x, s.contains dbg x = .ok (decide (k < covering is x)) := fun x => by
    rw [Selection.contains_ok dbg v]
    exact congrArg _ ((c false (.fin x) ⟨rfl, x, rfl⟩ k s hk).trans (by rw [Selection.countP_at hi]))
  refine ⟨hc, ?_⟩
  by_cases h0 : k = 0
  · subst h0
    rw [if_pos rfl, Selection.empty_cov rs]
    have one : ∀ i ∈ is, (i.isEmpty = true ↔ ∀ aft k, RealPos aft k → tcov (Selection.ofInterval i).tree aft k = false) := by
      intro i h
      rw [← Selection.empty_cov (.ofInterval (hi i h)), Selection.ofInterval_empty (hi i h)]
    constructor
    · intro h i him
      rw [one i him]
      intro aft k hr
      have := h aft k hr
      rw [m2 s hk, List.any_eq_false] at this
      exact Bool.eq_false_iff.2 (this i him)
    · intro h aft k hr
      rw [m2 s hk, List.any_eq_false]
      exact fun i him => by rw [(one i him).1 (h i him) aft k hr]; simp
  · rw [if_neg h0]
    have u : s.UnionBuilt := by
      refine m1 s ?_
      obtain ⟨k, rfl⟩ := Nat.exists_eq_succ_of_ne_zero h0
      exact List.mem_of_getElem? (by rw [List.getElem?_tail]; exact hk)
    rw [C54_is_empty_partial dbg s (.tidy (.inl u)), Set.eq_empty_iff_forall_notMem]
    refine forall_congr' fun x => ?_
    rw [Selection.mem_pts dbg v, ← not_lt, not_iff_not]
    have := hc x
    rw [Selection.contains_ok dbg v] at this
    injection this with this
    rw [this, decide_eq_true_eq]

/-- The part between 4 and 5 makes the first selection not empty, and no other. -/
example : (∀ i ∈ [Interval.mkOpen (u8 4) (u8 5), .mkOpen (u8 4) (u8 5)], i.Obtainable ∧ i.isEmpty = false) ∧
    (Selection.pile (Selection.bothByIntervals true) true [Interval.mkOpen (u8 4) (u8 5), .mkOpen (u8 4) (u8 5)]).map
      (fun ss => ss.map fun s => s.isEmpty) = .ok [false, true] :=
  ⟨fun i hi => (by rcases hi with _ | ⟨_, _ | ⟨_, h⟩⟩ <;> first | exact ⟨.mkOpen _ _, by decide⟩ | cases h), by decide⟩

omit [LinearOrder α] [Finite α] [LawfulFinite α] in
theorem List.countP_below {β : Type} {p : β → Bool} {l : List β} {m : Nat} (hm : m ≤ l.length)
    (h : ∀ k a, l[k]? = some a → (p a = true ↔ k < m)) : l.countP p = m := by
  induction l generalizing m with
  | nil => simp at hm; simp [hm]
  | cons a l ih =>
    have h0 := h 0 a rfl
    cases m with
    | zero =>
      rw [List.countP_eq_zero]
      intro b hb
      obtain ⟨k, hk⟩ := List.getElem?_of_mem hb
      simp [h k b hk]
    | succ m =>
      rw [List.countP_cons_of_pos (h0.2 (by omega)), ih (m := m) (by simpa using hm) fun k b hb => by
        rw [h (k + 1) b (by simpa using hb)]; omega]

/-- The number of selections that are not empty is the greatest number of intervals with a common value. -/
theorem C142_depth (dbg : Bool) (is : List (Interval α)) (hi : ∀ i ∈ is, i.Obtainable ∧ i.Real)
    (ss : List (Selection α)) (he : Selection.pile (Selection.bothByIntervals dbg) dbg is = .ok ss) :
    IsGreatest (Set.range (covering is)) (ss.countP fun s => !s.isEmpty) := by
  obtain ⟨ss', e, l, h⟩ := C142_intervals dbg is hi
  cases he.symm.trans e
  have hb : ∀ x, covering is x ≤ is.length := fun x => List.countP_le_length
  obtain ⟨m, ⟨x, hx⟩, hm⟩ : ∃ m, IsGreatest (Set.range (covering is)) m := by
    classical
    exact ⟨Nat.findGreatest (· ∈ Set.range (covering is)) is.length,
      Nat.findGreatest_spec (P := (· ∈ Set.range (covering is))) (hb minimum) ⟨minimum, rfl⟩,
      by rintro _ ⟨x, rfl⟩; exact Nat.le_findGreatest (hb x) ⟨x, rfl⟩⟩
  rw [List.countP_below (m := m) (by rw [l, ← hx]; exact hb x) fun k s hk => ?_]
  · exact ⟨⟨x, hx⟩, hm⟩
  · rw [Bool.not_eq_true', ← Bool.not_eq_true, (h k s hk).2.2, not_forall]
    exact ⟨fun ⟨y, hy⟩ => (not_le.1 hy).trans_le (hm ⟨y, rfl⟩), fun hk => ⟨x, by rw [hx]; exact not_le.2 hk⟩⟩

/-- `[0,1]` and `[2,3]` have no common value, but with the complements the second selection is not empty, and two
selections of the pile are not; with the listed intervals one is. -/
theorem C142_counterexample :
    (Selection.pile (Selection.bothByComplements true) true [Interval.mkClosed (u8 0) (u8 1), .mkClosed (u8 2) (u8 3)]).map
      (fun ss => (ss.countP fun s => !s.isEmpty, ss.map fun s => s.contains true (u8 1))) = .ok (2, [.ok true, .ok false]) ∧
    (Selection.pile (Selection.bothByIntervals true) true [Interval.mkClosed (u8 0) (u8 1), .mkClosed (u8 2) (u8 3)]).map
      (fun ss => (ss.countP fun s => !s.isEmpty, ss.map fun s => s.contains true (u8 1))) = .ok (1, [.ok true, .ok false]) := by
  decide

/-- `[1,5]`, `[3,8]`, `(4,9)`: three contain 5, two contain 3, four and 6 to 8. -/
example : (∀ i ∈ [Interval.mkClosed (u8 1) (u8 5), .mkClosed (u8 3) (u8 8), .mkOpen (u8 4) (u8 9)], i.Obtainable ∧ i.Real) ∧
    (Selection.pile (Selection.bothByIntervals true) true
      [Interval.mkClosed (u8 1) (u8 5), .mkClosed (u8 3) (u8 8), .mkOpen (u8 4) (u8 9)]).bind (fun ss =>
        ss.mapM fun s => s.intervals true) =
      .ok [[.mkClosed (u8 1) (u8 8)], [.mkClosed (u8 3) (u8 8)], [⟨.closed (u8 5) (u8 5)⟩]] ∧
    covering [Interval.mkClosed (u8 1) (u8 5), .mkClosed (u8 3) (u8 8), .mkOpen (u8 4) (u8 9)] (u8 5) = 3 := by
  refine ⟨fun i hi => ?_, by decide, by decide⟩
  rcases hi with _ | ⟨_, _ | ⟨_, _ | ⟨_, h⟩⟩⟩
  · exact ⟨.mkClosed _ _, .inr ⟨u8 1, by decide⟩⟩
  · exact ⟨.mkClosed _ _, .inr ⟨u8 3, by decide⟩⟩
  · exact ⟨.mkOpen _ _, .inr ⟨u8 5, by decide⟩⟩
  · cases h

end NI
