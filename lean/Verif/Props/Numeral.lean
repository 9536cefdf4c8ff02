import Verif.SpecNumeral
import Verif.Props.More

/-! # C140: intervals of integers are read by the numbers written -/

namespace NI
namespace MInt

theorem digit_iff (c : Char) (d : Nat) :
    digit c = some d ↔ ['0', '1', '2', '3', '4', '5', '6', '7', '8', '9'].idxOf? c = some d := by
  by_cases h : '0'.toNat ≤ c.toNat ∧ c.toNat ≤ '9'.toNat
  · have e : c = Char.ofNat ('0'.toNat + (c.toNat - '0'.toNat)) := by
      rw [Nat.add_sub_cancel' h.1, Char.ofNat_toNat]
    have hk : c.toNat - '0'.toNat < 10 := by
      have := h.2; have e9 : '9'.toNat = 57 := rfl; have e0 : '0'.toNat = 48 := rfl; omega
    generalize c.toNat - '0'.toNat = k at e hk
    subst e
    have all : ∀ k : Fin 10, ['0', '1', '2', '3', '4', '5', '6', '7', '8', '9'].idxOf?
        (Char.ofNat ('0'.toNat + k.1)) = some k.1 := by decide
    rw [digit_ofNat k hk, all ⟨k, hk⟩]
  · have hn : digit c = none := by rw [digit, if_neg h]
    have hm : ['0', '1', '2', '3', '4', '5', '6', '7', '8', '9'].idxOf? c = none := by
      rw [List.idxOf?_eq_none_iff]
      intro hc
      apply h
      simp only [List.mem_cons, List.not_mem_nil, or_false] at hc
      rcases hc with rfl | rfl | rfl | rfl | rfl | rfl | rfl | rfl | rfl | rfl <;> decide
    rw [hn, hm]

theorem digit_eq (c : Char) :
    digit c = ['0', '1', '2', '3', '4', '5', '6', '7', '8', '9'].idxOf? c :=
  Option.ext fun d => by simpa using digit_iff c d

theorem decimalFrom_le {s : Str} {n m : Nat} (h : Str.decimalFrom n s = some m) : n ≤ m := by
  induction s generalizing n with
  | nil => cases h; exact le_refl _
  | cons c s ih =>
    rw [Str.decimalFrom] at h
    split at h
    · cases h
    · have := ih h; omega

/-- The loop for positive numbers. -/
theorem parsePos_iff (hi : Int) (s : Str) (n : Nat) (hn : (n : Int) ≤ hi) (x : Int) :
    parsePos hi n s = .ok x ↔ ∃ m, Str.decimalFrom n s = some m ∧ (m : Int) ≤ hi ∧ x = m := by
  induction s generalizing n with
  | nil =>
    simp only [parsePos, Str.decimalFrom, Except.ok.injEq, Option.some.injEq]
    exact ⟨fun h => ⟨n, rfl, hn, h.symm⟩, by rintro ⟨m, rfl, -, h⟩; exact h.symm⟩
  | cons c s ih =>
    rw [parsePos, Str.decimalFrom, ← digit_eq]
    cases digit c with
    | none => simp
    | some d =>
      simp only
      have big : hi < (n : Int) * 10 + d →
          ¬ ∃ m, Str.decimalFrom (10 * n + d) s = some m ∧ (m : Int) ≤ hi ∧ x = m := by
        rintro hb ⟨m, hm, hle, -⟩
        have := decimalFrom_le hm
        omega
      split
      · simp only [reduceCtorEq, false_iff]; exact big (by omega)
      split
      · simp only [reduceCtorEq, false_iff]; exact big (by omega)
      · have e : (n : Int) * 10 + d = ((10 * n + d : Nat) : Int) := by omega
        rw [e]
        exact ih (10 * n + d) (by omega)

/-- The loop for negative numbers. -/
theorem parseNeg_iff (lo : Int) (s : Str) (n : Nat) (hn : lo ≤ -(n : Int)) (x : Int) :
    parseNeg lo (-n) s = .ok x ↔ ∃ m, Str.decimalFrom n s = some m ∧ lo ≤ -(m : Int) ∧ x = -m := by
  induction s generalizing n with
  | nil =>
    simp only [parseNeg, Str.decimalFrom, Except.ok.injEq, Option.some.injEq]
    exact ⟨fun h => ⟨n, rfl, hn, h.symm⟩, by rintro ⟨m, rfl, -, h⟩; exact h.symm⟩
  | cons c s ih =>
    rw [parseNeg, Str.decimalFrom, ← digit_eq]
    cases digit c with
    | none => simp
    | some d =>
      simp only
      have big : -(n : Int) * 10 - d < lo →
          ¬ ∃ m, Str.decimalFrom (10 * n + d) s = some m ∧ lo ≤ -(m : Int) ∧ x = -m := by
        rintro hb ⟨m, hm, hle, -⟩
        have := decimalFrom_le hm
        omega
      split
      · simp only [reduceCtorEq, false_iff]; exact big (by omega)
      split
      · simp only [reduceCtorEq, false_iff]; exact big (by omega)
      · have e : -(n : Int) * 10 - d = -((10 * n + d : Nat) : Int) := by omega
        rw [e]
        exact ih (10 * n + d) (by omega)

/-- The numbers a type with values `lo..=hi` reads. -/
theorem parseInt_iff {lo hi : Int} (h0 : lo ≤ 0) (h1 : 0 ≤ hi) (s : Str) (x : Int) :
    parseInt lo hi s = .ok x ↔ Numeral (lo < 0) s x ∧ lo ≤ x ∧ x ≤ hi := by
  have pos : ∀ s : Str, s ≠ [] → (parsePos hi 0 s = .ok x ↔ ∃ m, s.decimal = some m ∧ (m : Int) ≤ hi ∧ x = m) :=
    fun s hs => by
      have := parsePos_iff hi s 0 (by simpa using h1) x
      rw [Str.decimal, if_neg hs]; simpa using this
  have neg : ∀ s : Str, s ≠ [] → (parseNeg lo 0 s = .ok x ↔ ∃ m, s.decimal = some m ∧ lo ≤ -(m : Int) ∧ x = -m) :=
    fun s hs => by
      have := parseNeg_iff lo s 0 (by simpa using h0) x
      rw [Str.decimal, if_neg hs]; simpa using this
  have sign : ∀ (c : Char) (s : Str), c = '+' ∨ c = '-' → Str.decimal (c :: s) = none := by
    rintro c s (rfl | rfl) <;> rfl
  unfold parseInt
  split
  · refine ⟨nofun, ?_⟩
    rintro ⟨h, -⟩; cases h with | plain h => cases h
  · refine ⟨nofun, ?_⟩
    rintro ⟨h, -⟩
    cases h with
    | plain h => rw [sign _ _ (.inl rfl)] at h; cases h
    | plus h => cases h
  · refine ⟨nofun, ?_⟩
    rintro ⟨h, -⟩
    cases h with
    | plain h => rw [sign _ _ (.inr rfl)] at h; cases h
    | minus _ h => cases h
  · rename_i v hv
    have hv : v ≠ [] := by rintro rfl; exact hv rfl
    rw [pos v hv]
    constructor
    · rintro ⟨m, hm, hle, rfl⟩; exact ⟨.plus hm, by omega, hle⟩
    · rintro ⟨h, -, hle⟩
      cases h with
      | plain h => rw [sign _ _ (.inl rfl)] at h; cases h
      | plus h => exact ⟨_, h, hle, rfl⟩
  · rename_i v hv
    have hv : v ≠ [] := by rintro rfl; exact hv rfl
    split
    · rename_i hs
      rw [neg v hv]
      constructor
      · rintro ⟨m, hm, hle, rfl⟩; exact ⟨.minus hs hm, hle, by omega⟩
      · rintro ⟨h, hle, -⟩
        cases h with
        | plain h => rw [sign _ _ (.inr rfl)] at h; cases h
        | minus _ h => exact ⟨_, h, hle, rfl⟩
    · rename_i hs
      refine ⟨nofun, ?_⟩
      rintro ⟨h, -⟩
      cases h with
      | plain h => rw [sign _ _ (.inr rfl)] at h; cases h
      | minus h _ => exact absurd h hs
  · rename_i h00 _ _ hp hm
    rw [pos _ (by rintro rfl; exact h00 rfl)]
    constructor
    · rintro ⟨m, hm, hle, rfl⟩; exact ⟨.plain hm, by omega, hle⟩
    · rintro ⟨h, -, hle⟩
      cases h with
      | plain h => exact ⟨_, h, hle, rfl⟩
      | plus h => exact absurd rfl (hp _)
      | minus _ h => exact absurd rfl (hm _)

theorem parsePos_over (hi : Int) (s : Str) (n m : Nat) (hn : (n : Int) ≤ hi)
    (h : Str.decimalFrom n s = some m) (hm : hi < (m : Int)) : parsePos hi n s = .error .posOverflow := by
  induction s generalizing n with
  | nil => cases h; omega
  | cons c s ih =>
    rw [parsePos]
    rw [Str.decimalFrom, ← digit_eq] at h
    cases hd : digit c with
    | none => rw [hd] at h; cases h
    | some d =>
      rw [hd] at h
      simp only at h ⊢
      split
      · rfl
      split
      · rfl
      · have e : (n : Int) * 10 + d = ((10 * n + d : Nat) : Int) := by omega
        rw [e]
        exact ih (10 * n + d) (by omega) h

theorem parseNeg_over (lo : Int) (s : Str) (n m : Nat) (hn : lo ≤ -(n : Int))
    (h : Str.decimalFrom n s = some m) (hm : -(m : Int) < lo) : parseNeg lo (-n) s = .error .negOverflow := by
  induction s generalizing n with
  | nil => cases h; omega
  | cons c s ih =>
    rw [parseNeg]
    rw [Str.decimalFrom, ← digit_eq] at h
    cases hd : digit c with
    | none => rw [hd] at h; cases h
    | some d =>
      rw [hd] at h
      simp only at h ⊢
      split
      · rfl
      split
      · rfl
      · have e : -(n : Int) * 10 - d = -((10 * n + d : Nat) : Int) := by omega
        rw [e]
        exact ih (10 * n + d) (by omega) h

/-- A number beyond the type. -/
theorem parseInt_over {lo hi : Int} (h0 : lo ≤ 0) (h1 : 0 ≤ hi) {s : Str} {x : Int}
    (h : Numeral (lo < 0) s x) :
    (hi < x → parseInt lo hi s = .error .posOverflow) ∧ (x < lo → parseInt lo hi s = .error .negOverflow) := by
  have dec : ∀ {s : Str} {n : Nat}, s.decimal = some n → s ≠ [] ∧ Str.decimalFrom 0 s = some n := by
    intro s n h
    rw [Str.decimal] at h
    split at h
    · cases h
    · exact ⟨by assumption, h⟩
  cases h with
  | @plain _ n h =>
    obtain ⟨hs, hd⟩ := dec h
    refine ⟨fun hx => ?_, fun hx => by omega⟩
    have hp : ∀ v, s ≠ '+' :: v := by rintro v rfl; cases h
    have hm : ∀ v, s ≠ '-' :: v := by rintro v rfl; cases h
    have := parsePos_over hi s 0 n (by simpa using h1) hd hx
    rw [parseInt]
    · simpa using this
    · exact hs
    · exact hp _
    · exact hm _
    · intro v hv; exact absurd hv (hp v)
    · intro v hv; exact absurd hv (hm v)
  | @plus v n h =>
    obtain ⟨hs, hd⟩ := dec h
    refine ⟨fun hx => ?_, fun hx => by omega⟩
    have := parsePos_over hi v 0 n (by simpa using h1) hd hx
    rw [parseInt]
    · simpa using this
    · simpa using hs
  | @minus v n hl h =>
    obtain ⟨hs, hd⟩ := dec h
    refine ⟨fun hx => by omega, fun hx => ?_⟩
    have := parseNeg_over lo v 0 n (by simpa using h0) hd hx
    rw [parseInt, if_pos hl]
    · simpa using this
    · simpa using hs

theorem decimalFrom_chars {s : Str} {n m : Nat} (h : Str.decimalFrom n s = some m) :
    ∀ c ∈ s, (digit c).isSome = true := by
  induction s generalizing n with
  | nil => simp
  | cons c s ih =>
    rw [Str.decimalFrom, ← digit_eq] at h
    cases hd : digit c with
    | none => rw [hd] at h; cases h
    | some d =>
      rw [hd] at h
      intro c' hc
      rcases List.mem_cons.1 hc with rfl | hc
      · rw [hd]; rfl
      · exact ih h c' hc

theorem numeral_chars {sg : Prop} {s : Str} {x : Int} (h : Numeral sg s x) :
    ∀ c ∈ s, c = '+' ∨ c = '-' ∨ (digit c).isSome = true := by
  have dec : ∀ {s : Str} {n : Nat}, s.decimal = some n → ∀ c ∈ s, (digit c).isSome = true := by
    intro s n h
    rw [Str.decimal] at h
    split at h
    · cases h
    · exact decimalFrom_chars h
  intro c hc
  cases h with
  | plain h => exact .inr (.inr (dec h c hc))
  | plus h =>
    rcases List.mem_cons.1 hc with hc | hc
    exacts [.inl hc, .inr (.inr (dec h c hc))]
  | minus _ h =>
    rcases List.mem_cons.1 hc with hc | hc
    exacts [.inr (.inl hc), .inr (.inr (dec h c hc))]

/-- What a type makes of a number written. -/
theorem parse_numeral {lo hi : Int} (h0 : lo ≤ 0) (h1 : 0 ≤ hi) {s : Str} {x : Int}
    (h : Numeral (lo < 0) s x) : (Text.parse s : Except IntError (MInt lo hi)) =
      if hx : lo ≤ x ∧ x ≤ hi then .ok ⟨x, hx⟩ else .error (if hi < x then .posOverflow else .negOverflow) := by
  show MInt.parse s = _
  rw [parse]
  by_cases hx : lo ≤ x ∧ x ≤ hi
  · rw [(parseInt_iff h0 h1 s x).2 ⟨h, hx⟩, dif_pos hx]
    exact dif_pos hx
  · rw [dif_neg hx]
    by_cases hb : hi < x
    · rw [(parseInt_over h0 h1 h).1 hb, if_pos hb]
    · rw [(parseInt_over h0 h1 h).2 (by omega), if_neg hb]

end MInt

variable {lo hi : Int}

/-- **C140.** A string is read as the value `x` of an integer type exactly if it writes the number `x`
in decimal digits, with as many leading zeros as one likes, with a plus sign or not, and with a minus
sign if the type is signed. -/
theorem C140_values (h0 : lo ≤ 0) (h1 : 0 ≤ hi) (s : Str) (x : MInt lo hi) :
    Text.parse s = .ok x ↔ Numeral (lo < 0) s x.1 := by
  have e := MInt.parseInt_iff h0 h1 s
  show MInt.parse s = .ok x ↔ _
  unfold MInt.parse
  split
  · rename_i er h
    refine ⟨nofun, fun hn => ?_⟩
    rw [(e x.1).2 ⟨hn, x.2⟩] at h
    cases h
  · rename_i y h
    have hy := (e y).1 h
    rw [dif_pos hy.2]
    constructor
    · intro hx; cases hx; exact hy.1
    · intro hn
      have := (e x.1).2 ⟨hn, x.2⟩
      rw [h] at this
      cases this; rfl

example : Numeral ((-128 : Int) < 0) ['-', '0', '0', '5'] (-5) ∧
    (Text.parse ['-', '0', '0', '5'] : Except IntError I8) = .ok (MInt.lit (-5)) ∧
    (Text.parse ['-', '0', '0', '5'] : Except IntError U8) = .error .invalidDigit ∧
    (Text.parse ['-'] : Except IntError I8) = .error .invalidDigit := by
  refine ⟨.minus (n := 5) (by decide) (by decide), ?_, ?_, ?_⟩ <;> decide

/-- Two numbers in brackets are read as the interval between them if both are in range, and refused
with the overflow of the first that is not otherwise. -/
theorem C140_pair (h0 : lo ≤ 0) (h1 : 0 ≤ hi) {a b : Str} {m n : Int} {o c : Char}
    (ho : o = '(' ∨ o = '[') (hc : c = ')' ∨ c = ']') (ha : Numeral (lo < 0) a m) (hb : Numeral (lo < 0) b n) :
    RawInterval.fromStr (α := MInt lo hi) (o :: a ++ ',' :: (b ++ [c])) =
      if hm : lo ≤ m ∧ m ≤ hi then
        if hn : lo ≤ n ∧ n ≤ hi then .ok (.ok (RawInterval.new (Bound.opening o ⟨m, hm⟩) (Bound.closing c ⟨n, hn⟩)))
        else .ok (.error (.invalidValue (if hi < n then .posOverflow else .negOverflow)))
      else .ok (.error (.invalidValue (if hi < m then .posOverflow else .negOverflow))) := by
  have cha : ∀ c ∈ a, c = '+' ∨ c = '-' ∨ (MInt.digit c).isSome = true := MInt.numeral_chars ha
  have chb : ∀ c ∈ b, c = '+' ∨ c = '-' ∨ (MInt.digit c).isSome = true := MInt.numeral_chars hb
  have nb := (MInt.plain lo hi).noBracket
  have hcomma : ',' ∉ o :: a := by
    intro hm
    rcases List.mem_cons.1 hm with hm | hm
    · rcases ho with rfl | rfl <;> cases hm
    · have := cha _ hm; revert this; decide
  have hinf : ¬ ['-', '∞'] <+: a := by
    rintro ⟨v, rfl⟩
    have := cha '∞' (by simp); revert this; decide
  have hinf' : ¬ ['∞'] <:+ b := by
    rintro ⟨v, rfl⟩
    have := chb '∞' (by simp); revert this; decide
  have hO : ¬ ['Ø'] <+: o :: a ++ ',' :: (b ++ [c]) := by
    rintro ⟨v, hv⟩
    rcases ho with rfl | rfl <;> cases hv
  have hP : ∀ p : MInt lo hi, Text.parse (o :: a ++ ',' :: (b ++ [c])) ≠ .ok p := by
    intro p
    rcases ho with rfl | rfl
    exacts [(nb _ p).1, (nb _ p).2]
  have pa := MInt.parse_numeral h0 h1 ha
  have pb := MInt.parse_numeral h0 h1 hb
  have lerr : ∀ e, (Text.parse a : Except IntError (MInt lo hi)) = .error e → LowerError (MInt lo hi) (o :: a) e := by
    intro e he
    rcases ho with rfl | rfl
    exacts [.excl hinf he, .incl he]
  have uerr : ∀ e, (Text.parse b : Except IntError (MInt lo hi)) = .error e → UpperError (MInt lo hi) (b ++ [c]) e := by
    intro e he
    rcases hc with rfl | rfl
    exacts [.excl hinf' he, .incl he]
  have low : ∀ x : MInt lo hi, Text.parse a = .ok x → LowerText (o :: a) (Bound.opening o x) := by
    intro x hx
    rcases ho with rfl | rfl
    exacts [.excl hinf hx, .incl hx]
  have upp : ∀ x : MInt lo hi, Text.parse b = .ok x → UpperText (b ++ [c]) (Bound.closing c x) := by
    intro x hx
    rcases hc with rfl | rfl
    exacts [.excl hinf' hx, .incl hx]
  split
  · rename_i hm
    rw [dif_pos hm] at pa
    split
    · rename_i hn
      rw [dif_pos hn] at pb
      exact RawInterval.fromStr_pair nb hcomma (low _ pa) (upp _ pb)
    · rename_i hn
      rw [dif_neg hn] at pb
      exact (C14_value_error _ _).2 ⟨hO, hP, _, _, rfl, hcomma, .inr ⟨⟨_, low _ pa⟩, uerr _ pb⟩⟩
  · rename_i hm
    rw [dif_neg hm] at pa
    exact (C14_value_error _ _).2 ⟨hO, hP, _, _, rfl, hcomma, .inl (lerr _ pa)⟩

example : Numeral True ['0', '0', '7'] 7 ∧ Numeral True ['-', '0', '5'] (-5) ∧ Numeral True ['+', '3', '0', '0'] 300 ∧
    RawInterval.fromStr (α := I8) ['(', '-', '0', '5', ',', '0', '0', '7', ']'] =
      .ok (.ok (.leftOpen (MInt.lit (-5)) (MInt.lit 7))) ∧
    RawInterval.fromStr (α := I8) ['[', '0', '0', '7', ',', '+', '3', '0', '0', ')'] =
      .ok (.error (.invalidValue .posOverflow)) := by
  refine ⟨.plain (n := 7) (by decide), .minus (n := 5) trivial (by decide), .plus (n := 300) (by decide), ?_, ?_⟩ <;> decide

/-- An interval read with two finite bounds was written by these two numbers in brackets, or as the one
number that it contains. -/
theorem C140_only (h0 : lo ≤ 0) (h1 : 0 ≤ hi) (s : Str) (i : RawInterval (MInt lo hi))
    (h : RawInterval.fromStr s = .ok (.ok i)) {p q : MInt lo hi} (hp : i.infimum = some p) (hq : i.supremum = some q) :
    (Numeral (lo < 0) s p.1 ∧ i = .point p) ∨
      ∃ (o c : Char) (a b : Str), (o = '(' ∨ o = '[') ∧ (c = ')' ∨ c = ']') ∧ s = o :: a ++ ',' :: (b ++ [c]) ∧
        Numeral (lo < 0) a p.1 ∧ Numeral (lo < 0) b q.1 ∧
        i = RawInterval.new (Bound.opening o p) (Bound.closing c q) := by
  have key : ∀ {lb ub : Bound (MInt lo hi)} {x y : MInt lo hi}, (lb = .incl x ∨ lb = .excl x) →
      (ub = .incl y ∨ ub = .excl y) → (RawInterval.new lb ub).infimum = some p →
      (RawInterval.new lb ub).supremum = some q → x = p ∧ y = q := by
    rintro lb ub x y (rfl | rfl) (rfl | rfl) <;>
      simp only [RawInterval.new, RawInterval.mkClosed, RawInterval.mkOpen, RawInterval.mkLeftOpen,
        RawInterval.mkRightOpen] <;> (repeat' split) <;>
      simp [RawInterval.infimum, RawInterval.supremum, RawInterval.lowerBound, RawInterval.upperBound] <;>
      grind
  have st := C66_strict_partial s i h hp hq
  cases st with
  | empty => cases hp
  | point hr =>
    left
    cases hp
    exact ⟨(C140_values h0 h1 _ _).1 hr, rfl⟩
  | pair hx hy =>
    right
    have noinf : ∀ {lb ub : Bound (MInt lo hi)}, (RawInterval.new lb ub).infimum = some p →
        (RawInterval.new lb ub).supremum = some q → lb ≠ .inf ∧ ub ≠ .inf := by
      intro lb ub hp hq
      constructor
      · rintro rfl
        cases ub <;> simp [RawInterval.new, RawInterval.infimum, RawInterval.lowerBound] at hp
      · rintro rfl
        cases lb <;> simp [RawInterval.new, RawInterval.supremum, RawInterval.upperBound] at hq
    have ni := noinf hp hq
    cases hx with
    | inf => exact absurd rfl ni.1
    | excl h2 =>
      cases hy with
      | inf => exact absurd rfl ni.2
      | excl h3 =>
        obtain ⟨rfl, rfl⟩ := key (.inr rfl) (.inr rfl) hp hq
        exact ⟨'(', ')', _, _, .inl rfl, .inl rfl, rfl, (C140_values h0 h1 _ _).1 h2, (C140_values h0 h1 _ _).1 h3, rfl⟩
      | incl h3 =>
        obtain ⟨rfl, rfl⟩ := key (.inr rfl) (.inl rfl) hp hq
        exact ⟨'(', ']', _, _, .inl rfl, .inr rfl, rfl, (C140_values h0 h1 _ _).1 h2, (C140_values h0 h1 _ _).1 h3, rfl⟩
    | incl h2 =>
      cases hy with
      | inf => exact absurd rfl ni.2
      | excl h3 =>
        obtain ⟨rfl, rfl⟩ := key (.inl rfl) (.inr rfl) hp hq
        exact ⟨'[', ')', _, _, .inr rfl, .inl rfl, rfl, (C140_values h0 h1 _ _).1 h2, (C140_values h0 h1 _ _).1 h3, rfl⟩
      | incl h3 =>
        obtain ⟨rfl, rfl⟩ := key (.inl rfl) (.inl rfl) hp hq
        exact ⟨'[', ']', _, _, .inr rfl, .inr rfl, rfl, (C140_values h0 h1 _ _).1 h2, (C140_values h0 h1 _ _).1 h3, rfl⟩

example : RawInterval.fromStr (α := I8) ['[', '+', '7', ',', '0', '9', ')'] =
      .ok (.ok (.rightOpen (MInt.lit 7) (MInt.lit 9))) ∧
    (RawInterval.rightOpen (MInt.lit 7 : I8) (MInt.lit 9)).infimum = some (MInt.lit 7) ∧
    (RawInterval.rightOpen (MInt.lit 7 : I8) (MInt.lit 9)).supremum = some (MInt.lit 9) := by decide

end NI
