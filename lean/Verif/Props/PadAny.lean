import Verif.Props.Pad
import Verif.Props.Blocks

/-! # C144 for selections of any history -/

namespace NI
open _root_.NI.Finite TT
variable {lo hi : Int} [Fact (lo ≤ hi)]

/-- `stretch` by functions that do not overflow. -/
theorem Selection.stretch_total (dbg : Bool) (f g : MInt lo hi → MInt lo hi) (s : Selection (MInt lo hi)) :
    s.stretch dbg (fun l => some (f l)) (fun u => some (g u)) = s.mapEnds dbg f g := by
  have : Interval.stretch (fun l => some (f l)) (fun u => some (g u)) = Interval.mapEnds f g := by
    funext i
    simp only [Interval.stretch, Interval.mapEnds]
    split <;> split <;> simp_all
  simp only [Selection.stretch, Selection.mapEnds, this]

/-- **C144.**  What padding by `k` gives for any history: the values at most `k` beyond the ends of a listed interval.
They are those at most `k` away from a value exactly if this is so of what is made of the listed intervals without
values, which have their ends in reverse order. -/
theorem C144_pad_any (dbg : Bool) (k : MInt lo hi) (hk : 0 ≤ k.1) (s : Selection (MInt lo hi)) (hs : s.Reachable)
    (is : List (Interval (MInt lo hi))) (e : s.intervals dbg = .ok is) :
    ∃ r, s.pad dbg k = .ok r ∧ r.Reachable ∧
      r.pts dbg = {x | ∃ i ∈ is, ∃ l u, i.infimum = some l ∧ i.supremum = some u ∧ l.1 - k.1 ≤ x.1 ∧ x.1 ≤ u.1 + k.1} ∧
      {x | ∃ y ∈ s.pts dbg, x.1 - y.1 ≤ k.1 ∧ y.1 - x.1 ≤ k.1} ⊆ r.pts dbg ∧
      (r.pts dbg = {x | ∃ y ∈ s.pts dbg, x.1 - y.1 ≤ k.1 ∧ y.1 - x.1 ≤ k.1} ↔
        ∀ i ∈ is, ∀ l u, i.infimum = some l → i.supremum = some u → u < l → ∀ x : MInt lo hi,
          l.1 - k.1 ≤ x.1 → x.1 ≤ u.1 + k.1 → ∃ y ∈ s.pts dbg, x.1 - y.1 ≤ k.1 ∧ y.1 - x.1 ≤ k.1) := by
  obtain ⟨is', e', h, hx⟩ := hs.ends dbg
  rw [e] at e'; cases e'
  obtain ⟨r, hr, hR, -, hp⟩ := Selection.mapEnds_ok dbg (fun l : MInt lo hi => (MInt.clamp (l.1 - k.1) : MInt lo hi))
    (fun u => MInt.clamp (u.1 + k.1)) hs is e
  have hpts : r.pts dbg =
      {x | ∃ i ∈ is, ∃ l u, i.infimum = some l ∧ i.supremum = some u ∧ l.1 - k.1 ≤ x.1 ∧ x.1 ≤ u.1 + k.1} := by
    ext x
    rw [hp x]
    refine exists_congr fun i => and_congr_right fun _ => exists_congr fun l => exists_congr fun u =>
      and_congr_right fun _ => and_congr_right fun _ => ?_
    have b1 := l.2; have b2 := u.2; have b3 := x.2
    show (max lo (min hi (l.1 - k.1)) ≤ x.1 ∧ x.1 ≤ max lo (min hi (u.1 + k.1))) ↔ _
    omega
  have hsub : {x | ∃ y ∈ s.pts dbg, x.1 - y.1 ≤ k.1 ∧ y.1 - x.1 ≤ k.1} ⊆ r.pts dbg := by
    rintro x ⟨y, hy, h1, h2⟩
    rw [hpts]
    obtain ⟨i, hi', hyi⟩ := (hx y).1 hy
    obtain ⟨l, u, g1, g2, g3, -⟩ := h i hi'
    rw [g3] at hyi
    have g4 : l.1 ≤ y.1 := hyi.1
    have g5 : y.1 ≤ u.1 := hyi.2
    exact ⟨i, hi', l, u, g1, g2, by omega, by omega⟩
  refine ⟨r, by rw [Selection.pad, Selection.stretch_total]; exact hr, hR, hpts, hsub, fun he i hi' l u h1 h2 _ x h3 h4 => ?_,
    fun hv => Set.Subset.antisymm (fun x hx' => ?_) hsub⟩
  · have : x ∈ r.pts dbg := by rw [hpts]; exact ⟨i, hi', l, u, h1, h2, h3, h4⟩
    rw [he] at this; exact this
  · rw [hpts] at hx'
    obtain ⟨i, hi', l, u, h1, h2, h3, h4⟩ := hx'
    by_cases hlu : u < l
    · exact hv i hi' l u h1 h2 hlu x h3 h4
    · obtain ⟨l', u', h1', h2', g3, -⟩ := h i hi'
      rw [h1] at h1'; rw [h2] at h2'; cases h1'; cases h2'
      have hlu : l.1 ≤ u.1 := not_lt.1 hlu
      have b1 := l.2; have b2 := u.2; have b3 := x.2
      refine ⟨⟨max l.1 (min u.1 x.1), by omega, by omega⟩, (hx _).2 ⟨i, hi', (Set.ext_iff.1 g3 _).2 ⟨?_, ?_⟩⟩, ?_, ?_⟩
      · show l.1 ≤ max l.1 (min u.1 x.1); omega
      · show max l.1 (min u.1 x.1) ≤ u.1; omega
      · show x.1 - max l.1 (min u.1 x.1) ≤ k.1; omega
      · show max l.1 (min u.1 x.1) - x.1 ≤ k.1; omega

/-- **C144.**  Trimming for any history: right exactly if the complement is padded rightly. -/
theorem C144_trim_any (dbg : Bool) (k : MInt lo hi) (hk : 0 ≤ k.1) (s : Selection (MInt lo hi)) (hs : s.Reachable) :
    ∃ c cs r, s.complement dbg = .ok c ∧ c.intervals dbg = .ok cs ∧ s.trim dbg k = .ok r ∧ r.Reachable ∧
      r.pts dbg ⊆ {x : MInt lo hi | ∀ y : MInt lo hi, x.1 - y.1 ≤ k.1 → y.1 - x.1 ≤ k.1 → y ∈ s.pts dbg} ∧
      (r.pts dbg = {x : MInt lo hi | ∀ y : MInt lo hi, x.1 - y.1 ≤ k.1 → y.1 - x.1 ≤ k.1 → y ∈ s.pts dbg} ↔
        ∀ i ∈ cs, ∀ l u, i.infimum = some l → i.supremum = some u → u < l → ∀ x : MInt lo hi,
          l.1 - k.1 ≤ x.1 → x.1 ≤ u.1 + k.1 → ∃ y ∉ s.pts dbg, x.1 - y.1 ≤ k.1 ∧ y.1 - x.1 ≤ k.1) := by
  obtain ⟨c, ec, Rc, pc⟩ := Selection.complement_right dbg s hs
  obtain ⟨cs, ecs, -⟩ := Rc.ends dbg
  obtain ⟨q, eq, Rq, -, sq, iq⟩ := C144_pad_any dbg k hk c Rc cs ecs
  obtain ⟨r, er, Rr, pr⟩ := Selection.complement_right dbg q Rq
  have key : {x : MInt lo hi | ∀ y : MInt lo hi, x.1 - y.1 ≤ k.1 → y.1 - x.1 ≤ k.1 → y ∈ s.pts dbg} =
      {x : MInt lo hi | ∃ y ∈ c.pts dbg, x.1 - y.1 ≤ k.1 ∧ y.1 - x.1 ≤ k.1}ᶜ := by
    rw [pc]; ext x
    simp only [Set.mem_compl_iff, Set.mem_ofPred_eq, not_exists, not_and]
    exact ⟨fun h y hy h1 h2 => hy (h y h1 h2), fun h y h1 h2 => by_contra fun hy => h y hy h1 h2⟩
  refine ⟨c, cs, r, ec, ecs, by simp only [Selection.trim, ec, eq, bind, Except.bind]; exact er, Rr, ?_, ?_⟩
  · rw [key, pr]; exact Set.compl_subset_compl.2 sq
  · rw [key, pr, compl_inj_iff, iq]
    have : ∀ y, y ∈ c.pts dbg ↔ y ∉ s.pts dbg := fun y => by rw [pc]; rfl
    simp only [this]

/-- **C144.**  Shifting for any history: right if no end of a listed interval leaves the type; otherwise debug builds panic. -/
theorem C144_shift_any (dbg : Bool) (k : MInt lo hi) (s : Selection (MInt lo hi)) (hs : s.Reachable)
    (is : List (Interval (MInt lo hi))) (e : s.intervals dbg = .ok is) :
    ((∀ i ∈ is, ∀ y, i.infimum = some y ∨ i.supremum = some y → lo ≤ y.1 + k.1 ∧ y.1 + k.1 ≤ hi) ∧
      ∃ r, s.shift dbg MInt.plus k = .ok r ∧ r.Reachable ∧ r.pts dbg = {x | ∃ y ∈ s.pts dbg, x.1 = y.1 + k.1}) ∨
    ((∃ i ∈ is, ∃ y, (i.infimum = some y ∨ i.supremum = some y) ∧ ¬ (lo ≤ y.1 + k.1 ∧ y.1 + k.1 ≤ hi)) ∧
      s.shift dbg MInt.plus k = .error .overflow) := by
  obtain ⟨is', e', h, hx⟩ := hs.ends dbg
  rw [e] at e'; cases e'
  by_cases hy : ∀ i ∈ is, ∀ y, i.infimum = some y ∨ i.supremum = some y → lo ≤ y.1 + k.1 ∧ y.1 + k.1 ≤ hi
  · left
    refine ⟨hy, ?_⟩
    obtain ⟨r, hr, hR, -, hp⟩ := Selection.mapEnds_ok dbg (fun l : MInt lo hi => (MInt.clamp (l.1 + k.1) : MInt lo hi))
      (fun u => MInt.clamp (u.1 + k.1)) hs is e
    have plus : ∀ y : MInt lo hi, lo ≤ y.1 + k.1 ∧ y.1 + k.1 ≤ hi → MInt.plus y k = some (MInt.clamp (y.1 + k.1)) :=
      fun y h => by
        simp only [MInt.plus, dif_pos h, MInt.clamp, Option.some.injEq]
        apply Subtype.ext
        show y.1 + k.1 = max lo (min hi _)
        omega
    refine ⟨r, ?_, hR, Set.ext fun x => ?_⟩
    · rw [← hr]
      simp only [Selection.shift, Selection.stretch, Selection.mapEnds, e, bind, Except.bind]
      let st : Interval (MInt lo hi) → Interval (MInt lo hi) := fun i => match i.infimum, i.supremum with
        | some l, some u => .mkClosed (MInt.clamp (l.1 + k.1)) (MInt.clamp (u.1 + k.1))
        | _, _ => .empty
      rw [mapM_all (g := st) fun i hi' => ?_, mapM_all (g := st) fun i hi' => ?_]
      · obtain ⟨l, u, g1, g2, -⟩ := h i hi'
        simp only [Interval.mapEnds, st, g1, g2]
      · obtain ⟨l, u, g1, g2, -⟩ := h i hi'
        simp only [Interval.stretch, st, g1, g2, plus l (hy i hi' l (.inl g1)), plus u (hy i hi' u (.inr g2))]
    · rw [hp x]
      constructor
      · rintro ⟨i, hi', l, u, h1, h2, h3, h4⟩
        obtain ⟨l', u', h1', h2', g3, -⟩ := h i hi'
        rw [h1] at h1'; rw [h2] at h2'; cases h1'; cases h2'
        have hl := hy i hi' l (.inl h1)
        have hu := hy i hi' u (.inr h2)
        have h3 : max lo (min hi (l.1 + k.1)) ≤ x.1 := h3
        have h4 : x.1 ≤ max lo (min hi (u.1 + k.1)) := h4
        have b1 := l.2; have b2 := u.2
        refine ⟨⟨x.1 - k.1, by omega, by omega⟩, (hx _).2 ⟨i, hi', (Set.ext_iff.1 g3 _).2 ⟨?_, ?_⟩⟩, ?_⟩
        · show l.1 ≤ x.1 - k.1; omega
        · show x.1 - k.1 ≤ u.1; omega
        · show x.1 = x.1 - k.1 + k.1; omega
      · rintro ⟨y, h', hxy⟩
        obtain ⟨i, hi', hyi⟩ := (hx y).1 h'
        obtain ⟨l, u, g1, g2, g3, -⟩ := h i hi'
        rw [g3] at hyi
        have g3 : l.1 ≤ y.1 := hyi.1
        have g4 : y.1 ≤ u.1 := hyi.2
        have b3 := x.2
        refine ⟨i, hi', l, u, g1, g2, ?_, ?_⟩
        · show max lo (min hi (l.1 + k.1)) ≤ x.1; omega
        · show x.1 ≤ max lo (min hi (u.1 + k.1)); omega
  · right
    simp only [not_forall] at hy
    obtain ⟨i, hi', y, hiy, hn⟩ := hy
    refine ⟨⟨i, hi', y, hiy, hn⟩, ?_⟩
    have each : ∀ i ∈ is, Interval.stretch (fun l => MInt.plus l k) (fun u => MInt.plus u k) i = .error .overflow ∨
        ∃ j, Interval.stretch (fun l => MInt.plus l k) (fun u => MInt.plus u k) i = .ok j := by
      intro i hi'
      obtain ⟨l, u, h1, h2, -⟩ := h i hi'
      simp only [Interval.stretch, h1, h2]
      split
      · exact .inr ⟨_, rfl⟩
      · exact .inl rfl
    have one : Interval.stretch (fun l => MInt.plus l k) (fun u => MInt.plus u k) i = .error .overflow := by
      obtain ⟨l, u, h1, h2, -⟩ := h i hi'
      have no : MInt.plus y k = none := by rw [MInt.plus, dif_neg hn]
      simp only [Interval.stretch, h1, h2]
      rcases hiy with g | g
      · rw [h1] at g; cases g; simp only [no]
      · rw [h2] at g; cases g; rw [no]; cases MInt.plus l k <;> rfl
    simp only [Selection.shift, Selection.stretch, e, bind, Except.bind, mapM_overflow each ⟨i, hi', one⟩]

/-- **C144.**  An interval without values is padded too, and can make a shift panic: `]3,4[` and `[7,9]`. -/
theorem C144_any_counterexample : Selection.mixed.Reachable ∧
    (Selection.mixed.pad true (u8 1) >>= (·.intervals true)) = .ok [.mkClosed (u8 3) (u8 4), .mkClosed (u8 6) (u8 10)] ∧
    ∃ s : Selection U8, s.Reachable ∧ (∀ y ∈ s.pts true, y.1 + 1 ≤ 255) ∧ s.shift true MInt.plus (u8 1) = .error .overflow := by
  refine ⟨Selection.mixed_reachable, by decide, Selection.ofInterval (.mkOpen (u8 254) (u8 255)), .ofInterval (.mkOpen _ _),
    fun y hy => ?_, by decide⟩
  rw [(C48_start true _ (.mkOpen (u8 254) (u8 255))).2.2] at hy
  have := (C21_bounded (u8 254) (u8 255) y).2.2.1.1 hy
  have : y.1 < 255 := this.2
  omega

end NI
