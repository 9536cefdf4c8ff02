import Verif.SpecText

/-!
# Lemmas on the text form
-/

set_option linter.unusedSimpArgs false
set_option linter.unusedVariables false

namespace NI

namespace Str

theorem splitComma_none {s : Str} : splitComma s = none ↔ ',' ∉ s := by
  induction s with
  | nil => simp [splitComma]
  | cons c s ih =>
    by_cases h : c = ','
    · simp [splitComma, h]
    · simp [splitComma, h, ih, Ne.symm h]

theorem splitComma_some {s x y : Str} : splitComma s = some (x, y) ↔ s = x ++ ',' :: y ∧ ',' ∉ x := by
  induction s generalizing x with
  | nil => simp [splitComma]
  | cons c s ih =>
    by_cases h : c = ','
    · subst h
      simp only [splitComma, if_true, Option.some.injEq, Prod.mk.injEq]
      constructor
      · rintro ⟨rfl, rfl⟩; simp
      · rintro ⟨h1, h2⟩
        cases x with
        | nil => simpa using h1
        | cons d x =>
          simp only [List.cons_append, List.cons.injEq] at h1
          exact absurd (List.mem_cons.2 (.inl h1.1)) h2
    · simp only [splitComma, h, if_false, Option.map_eq_some_iff, Prod.exists, Prod.mk.injEq]
      constructor
      · rintro ⟨x', y', h1, rfl, rfl⟩
        obtain ⟨rfl, h2⟩ := ih.1 h1
        exact ⟨rfl, by simp [Ne.symm h, h2]⟩
      · rintro ⟨h1, h2⟩
        cases x with
        | nil => simp only [List.nil_append, List.cons.injEq] at h1; exact absurd h1.1 h
        | cons d x =>
          simp only [List.cons_append, List.cons.injEq] at h1
          refine ⟨x, y, ih.2 ⟨h1.2, fun hx => h2 (by simp [hx])⟩, by rw [h1.1], rfl⟩

theorem len_append (a b : Str) : len (a ++ b) = len a + len b := by simp [len]

theorem sliceTo_len (a b : Str) : sliceTo (a ++ b) (len a) = .ok a := by
  induction a with
  | nil => cases b <;> rfl
  | cons c a ih =>
    have hc : 0 < c.utf8Size := Char.utf8Size_pos c
    have e : len (c :: a) = len a + c.utf8Size := by simp [len, Nat.add_comm]
    obtain ⟨n, hn⟩ : ∃ n, len (c :: a) = n + 1 := ⟨len (c :: a) - 1, by omega⟩
    rw [hn, List.cons_append, sliceTo, if_pos (by omega)]
    have : n + 1 - c.utf8Size = len a := by omega
    rw [this, ih]; rfl

/-- Cutting off a last character of one byte. -/
theorem slice_last (v : Str) (c : Char) (hc : c.utf8Size = 1) :
    1 ≤ len (v ++ [c]) ∧ sliceTo (v ++ [c]) (len (v ++ [c]) - 1) = .ok v := by
  have e : len (v ++ [c]) = len v + 1 := by rw [len_append]; simp [len, hc]
  exact ⟨by omega, by rw [e, Nat.add_sub_cancel]; exact sliceTo_len v [c]⟩

end Str

namespace RawInterval
variable {α ε : Type} [Text α ε]

theorem parseLower_cases (x : Str) :
    (∃ lb : Bound α, LowerText x lb ∧ parseLower (α := α) x = .ok (.ok lb)) ∨
    (∃ e, LowerError α x e ∧ parseLower (α := α) x = .ok (.error (.invalidValue e))) ∨
    ((∀ v, x ≠ '(' :: v ∧ x ≠ '[' :: v) ∧ parseLower (α := α) x = .ok (.error .invalidInterval)) := by
  by_cases h : ['(', '-', '∞'].isPrefixOf x = true
  · rw [List.isPrefixOf_iff_prefix] at h
    obtain ⟨v, rfl⟩ := h
    exact .inl ⟨.inf, .inf v, by simp [parseLower]⟩
  · have h' : ¬ ['(', '-', '∞'] <+: x := by rwa [List.isPrefixOf_iff_prefix] at h
    cases x with
    | nil => exact .inr (.inr ⟨by simp, rfl⟩)
    | cons c v =>
      by_cases h1 : c = '('
      · subst h1
        have hn : ¬ ['-', '∞'] <+: v := fun hp => h' (List.cons_prefix_cons.2 ⟨rfl, hp⟩)
        have e : parseLower (α := α) ('(' :: v) = withValue v fun p => .ok (.ok (.excl p)) := by
          rw [parseLower, if_neg h]
        rw [e, withValue]
        cases hp : (Text.parse v : Except ε α) with
        | error e => exact .inr (.inl ⟨e, .excl hn hp, rfl⟩)
        | ok p => exact .inl ⟨_, .excl hn hp, rfl⟩
      · by_cases h2 : c = '['
        · subst h2
          have e : parseLower (α := α) ('[' :: v) = withValue v fun p => .ok (.ok (.incl p)) := by
            rw [parseLower, if_neg h]
          rw [e, withValue]
          cases hp : (Text.parse v : Except ε α) with
          | error e => exact .inr (.inl ⟨e, .incl hp, rfl⟩)
          | ok p => exact .inl ⟨_, .incl hp, rfl⟩
        · refine .inr (.inr ⟨fun w => ⟨by simp [h1], by simp [h2]⟩, ?_⟩)
          rw [parseLower, if_neg h]
          · intro r e; simp at e; exact h1 e.1
          · intro r e; simp at e; exact h2 e.1

theorem parseUpper_cases (y : Str) :
    (∃ ub : Bound α, UpperText y ub ∧ parseUpper (α := α) y = .ok (.ok ub)) ∨
    (∃ e, UpperError α y e ∧ parseUpper (α := α) y = .ok (.error (.invalidValue e))) ∨
    ((∀ v, y ≠ v ++ [')'] ∧ y ≠ v ++ [']']) ∧ parseUpper (α := α) y = .ok (.error .invalidInterval)) := by
  by_cases h : ['∞', ')'].isSuffixOf y = true
  · have h' := h
    rw [List.isSuffixOf_iff_suffix] at h
    obtain ⟨v, rfl⟩ := h
    exact .inl ⟨.inf, .inf v, by rw [parseUpper, if_pos h']⟩
  · by_cases h1 : [')'].isSuffixOf y = true
    · have h1' := h1
      rw [List.isSuffixOf_iff_suffix] at h1
      obtain ⟨v, rfl⟩ := h1
      have hn : ¬ ['∞'] <:+ v := by
        rintro ⟨w, rfl⟩
        exact h (List.isSuffixOf_iff_suffix.2 ⟨w, by simp⟩)
      obtain ⟨s1, s2⟩ := Str.slice_last v ')' (by decide)
      have e : parseUpper (α := α) (v ++ [')']) = withValue v fun p => .ok (.ok (.excl p)) := by
        rw [parseUpper, if_neg h, if_pos h1', if_pos s1]
        simp only [bind, Except.bind, s2]
      rw [e, withValue]
      cases hp : (Text.parse v : Except ε α) with
      | error e => exact .inr (.inl ⟨e, .excl hn hp, rfl⟩)
      | ok p => exact .inl ⟨_, .excl hn hp, rfl⟩
    · by_cases h2 : [']'].isSuffixOf y = true
      · have h2' := h2
        rw [List.isSuffixOf_iff_suffix] at h2
        obtain ⟨v, rfl⟩ := h2
        obtain ⟨s1, s2⟩ := Str.slice_last v ']' (by decide)
        have e : parseUpper (α := α) (v ++ [']']) = withValue v fun p => .ok (.ok (.incl p)) := by
          rw [parseUpper, if_neg h, if_neg h1, if_pos h2', if_pos s1]
          simp only [bind, Except.bind, s2]
        rw [e, withValue]
        cases hp : (Text.parse v : Except ε α) with
        | error e => exact .inr (.inl ⟨e, .incl hp, rfl⟩)
        | ok p => exact .inl ⟨_, .incl hp, rfl⟩
      · refine .inr (.inr ⟨fun w => ⟨?_, ?_⟩, by rw [parseUpper, if_neg h, if_neg h1, if_neg h2]⟩)
        · rintro rfl; exact h1 (List.isSuffixOf_iff_suffix.2 ⟨w, rfl⟩)
        · rintro rfl; exact h2 (List.isSuffixOf_iff_suffix.2 ⟨w, rfl⟩)

theorem not_inf_paren {v : Str} (h : ¬ ['-', '∞'] <+: v) :
    ¬ ['(', '-', '∞'].isPrefixOf ('(' :: v) = true := by
  rw [List.isPrefixOf_iff_prefix, List.cons_prefix_cons]; exact fun hh => h hh.2

theorem not_inf_bracket (v : Str) : ¬ ['(', '-', '∞'].isPrefixOf ('[' :: v) = true := by
  rw [List.isPrefixOf_iff_prefix, List.cons_prefix_cons]
  exact fun hh => absurd hh.1 (by decide)

theorem _root_.NI.LowerText.eq {x : Str} {lb : Bound α} (h : LowerText x lb) :
    parseLower (α := α) x = .ok (.ok lb) := by
  cases h with
  | inf v => simp [parseLower]
  | excl hn hp => rw [parseLower, if_neg (not_inf_paren hn), withValue, hp]
  | incl hp => rw [parseLower, if_neg (not_inf_bracket _), withValue, hp]

theorem _root_.NI.LowerError.eq {x : Str} {e : ε} (h : LowerError α x e) :
    parseLower (α := α) x = .ok (.error (.invalidValue e)) := by
  cases h with
  | excl hn hp => rw [parseLower, if_neg (not_inf_paren hn), withValue, hp]
  | incl hp => rw [parseLower, if_neg (not_inf_bracket _), withValue, hp]

theorem upper_excl {v : Str} (hn : ¬ ['∞'] <:+ v) : parseUpper (α := α) (v ++ [')']) =
    withValue v fun p => .ok (.ok (.excl p)) := by
  obtain ⟨s1, s2⟩ := Str.slice_last v ')' (by decide)
  rw [parseUpper, if_neg, if_pos, if_pos s1]
  · simp only [bind, Except.bind, s2]
  · exact List.isSuffixOf_iff_suffix.2 ⟨v, rfl⟩
  · rw [List.isSuffixOf_iff_suffix]
    rintro ⟨w, hw⟩
    have hw : w ++ ['∞'] ++ [')'] = v ++ [')'] := by simpa using hw
    exact hn ⟨w, (List.append_inj' hw rfl).1⟩

theorem upper_incl (v : Str) : parseUpper (α := α) (v ++ [']']) =
    withValue v fun p => .ok (.ok (.incl p)) := by
  obtain ⟨s1, s2⟩ := Str.slice_last v ']' (by decide)
  rw [parseUpper, if_neg, if_neg, if_pos, if_pos s1]
  · simp only [bind, Except.bind, s2]
  · exact List.isSuffixOf_iff_suffix.2 ⟨v, rfl⟩
  · rw [List.isSuffixOf_iff_suffix]
    rintro ⟨w, hw⟩
    exact absurd (List.append_inj' hw rfl).2 (by decide)
  · rw [List.isSuffixOf_iff_suffix]
    rintro ⟨w, hw⟩
    have hw : w ++ ['∞'] ++ [')'] = v ++ [']'] := by simpa using hw
    exact absurd (List.append_inj' hw rfl).2 (by decide)

theorem _root_.NI.UpperText.eq {y : Str} {ub : Bound α} (h : UpperText y ub) :
    parseUpper (α := α) y = .ok (.ok ub) := by
  cases h with
  | inf v => rw [parseUpper, if_pos (List.isSuffixOf_iff_suffix.2 ⟨v, rfl⟩)]
  | excl hn hp => rw [upper_excl hn, withValue, hp]
  | incl hp => rw [upper_incl, withValue, hp]

theorem _root_.NI.UpperError.eq {y : Str} {e : ε} (h : UpperError α y e) :
    parseUpper (α := α) y = .ok (.error (.invalidValue e)) := by
  cases h with
  | excl hn hp => rw [upper_excl hn, withValue, hp]
  | incl hp => rw [upper_incl, withValue, hp]

theorem fromStr_empty [LinearOrder α] {s : Str} (h : ['Ø'] <+: s) :
    fromStr (α := α) s = .ok (.ok .empty) := by
  rw [fromStr, if_pos (List.isPrefixOf_iff_prefix.2 h)]

theorem fromStr_point [LinearOrder α] {s : Str} (h : ¬ ['Ø'] <+: s) {p : α}
    (hp : Text.parse s = .ok p) : fromStr s = .ok (.ok (.point p)) := by
  rw [fromStr, if_neg (by rwa [List.isPrefixOf_iff_prefix]), hp]

/-- The rest of `from_str`. -/
theorem fromStr_rest [LinearOrder α] {s : Str} (h : ¬ ['Ø'] <+: s)
    (hp : ∀ p : α, Text.parse s ≠ .ok p) : fromStr (α := α) s =
      (match Str.splitComma s with
      | none => .ok (.error .invalidInterval)
      | some (x, y) => do
        match ← parseLower (α := α) x with
        | .error e => .ok (.error e)
        | .ok lb =>
          match ← parseUpper (α := α) y with
          | .error e => .ok (.error e)
          | .ok ub => .ok (.ok (RawInterval.new lb ub))) := by
  rw [fromStr, if_neg (by rwa [List.isPrefixOf_iff_prefix])]
  cases hh : (Text.parse s : Except ε α) with
  | ok p => exact absurd hh (hp p)
  | error e => rfl

end RawInterval

/-! ## Integers -/

namespace MInt

theorem digit_ofNat (d : Nat) (h : d < 10) : digit (Char.ofNat ('0'.toNat + d)) = some d := by
  have : ∀ d : Fin 10, digit (Char.ofNat ('0'.toNat + d.1)) = some d.1 := by decide
  exact this ⟨d, h⟩

theorem digits_mem {n : Nat} {c : Char} (h : c ∈ digits n) : (digit c).isSome = true := by
  induction n using Nat.strongRecOn with
  | ind n ih =>
    rw [digits] at h
    split at h
    · rename_i hn
      rw [List.mem_singleton] at h; rw [h, digit_ofNat n hn]; rfl
    · rename_i hn
      rcases List.mem_append.1 h with h | h
      · exact ih (n / 10) (by omega) h
      · rw [List.mem_singleton] at h; rw [h, digit_ofNat _ (Nat.mod_lt _ (by omega))]; rfl

theorem digits_ne_nil (n : Nat) : digits n ≠ [] := by
  rw [digits]; split <;> simp

theorem parsePos_digits (hi : Int) (n : Nat) (h : (n : Int) ≤ hi) (s : Str) :
    parsePos hi 0 (digits n ++ s) = parsePos hi n s := by
  induction n using Nat.strongRecOn generalizing s with
  | ind n ih =>
    rw [digits]
    split
    · rename_i hn
      simp only [List.singleton_append, parsePos, digit_ofNat n hn]
      rw [if_neg (by omega), if_neg (by omega)]
      simp
    · rename_i hn
      rw [List.append_assoc, ih (n / 10) (by omega) (by omega)]
      simp only [List.singleton_append, parsePos, digit_ofNat _ (Nat.mod_lt n (by omega : 0 < 10))]
      have e : ((n / 10 : Nat) : Int) * 10 + ((n % 10 : Nat) : Int) = n := by omega
      rw [e, if_neg (by omega), if_neg (by omega)]

theorem parseNeg_digits (lo : Int) (n : Nat) (h : lo ≤ -(n : Int)) (s : Str) :
    parseNeg lo 0 (digits n ++ s) = parseNeg lo (-n) s := by
  induction n using Nat.strongRecOn generalizing s with
  | ind n ih =>
    rw [digits]
    split
    · rename_i hn
      simp only [List.singleton_append, parseNeg, digit_ofNat n hn]
      rw [if_neg (by omega), if_neg (by omega)]
      simp
    · rename_i hn
      rw [List.append_assoc, ih (n / 10) (by omega) (by omega)]
      simp only [List.singleton_append, parseNeg, digit_ofNat _ (Nat.mod_lt n (by omega : 0 < 10))]
      have e : -((n / 10 : Nat) : Int) * 10 - ((n % 10 : Nat) : Int) = -n := by omega
      rw [e, if_neg (by omega), if_neg (by omega)]

theorem digits_head {n : Nat} {c : Char} {s : Str} (h : digits n = c :: s) : (digit c).isSome = true :=
  digits_mem (n := n) (by rw [h]; simp)

theorem parseInt_fmt {lo hi x : Int} (h1 : lo ≤ x) (h2 : x ≤ hi) : parseInt lo hi (fmtInt x) = .ok x := by
  rw [fmtInt]
  split
  · rename_i hx
    obtain ⟨c, s, hd⟩ := List.exists_cons_of_ne_nil (digits_ne_nil x.natAbs)
    have := parseNeg_digits lo x.natAbs (by omega) []
    rw [List.append_nil] at this
    have e : parseInt lo hi ('-' :: digits x.natAbs) = parseNeg lo 0 (digits x.natAbs) := by
      rw [hd, parseInt, if_pos (by omega)]
      all_goals simp
    rw [e, this, parseNeg]
    congr 1; omega
  · rename_i hx
    obtain ⟨c, s, hd⟩ := List.exists_cons_of_ne_nil (digits_ne_nil x.natAbs)
    have hc := digits_head hd
    have hp : c ≠ '+' := by rintro rfl; revert hc; decide
    have hm : c ≠ '-' := by rintro rfl; revert hc; decide
    have := parsePos_digits hi x.natAbs (by omega) []
    rw [List.append_nil] at this
    have e : parseInt lo hi (digits x.natAbs) = parsePos hi 0 (digits x.natAbs) := by
      rw [hd, parseInt] <;> simp [hp, hm]
    rw [e, this, parsePos]
    congr 1; omega

theorem fmt_mem {x : Int} {c : Char} (h : c ∈ fmtInt x) : c = '-' ∨ (digit c).isSome = true := by
  rw [fmtInt] at h
  split at h
  · rcases List.mem_cons.1 h with h | h
    exacts [.inl h, .inr (digits_mem h)]
  · exact .inr (digits_mem h)

theorem parseInt_bracket (lo hi : Int) (s : Str) (c : Char) (hc : c = '(' ∨ c = '[') :
    parseInt lo hi (c :: s) = .error .invalidDigit := by
  have hd : digit c = none := by rcases hc with rfl | rfl <;> decide
  have hp : c ≠ '+' := by rcases hc with rfl | rfl <;> decide
  have hm : c ≠ '-' := by rcases hc with rfl | rfl <;> decide
  rw [parseInt] <;> simp [hp, hm, parsePos, hd]

theorem parsePos_range {hi acc x : Int} {s : Str} (h0 : 0 ≤ acc) (h1 : acc ≤ hi)
    (h : parsePos hi acc s = .ok x) : 0 ≤ x ∧ x ≤ hi := by
  induction s generalizing acc with
  | nil => cases h; exact ⟨h0, h1⟩
  | cons c s ih =>
    rw [parsePos] at h
    cases hd : digit c with
    | none => rw [hd] at h; cases h
    | some d =>
      rw [hd] at h
      simp only at h
      split at h
      · cases h
      split at h
      · cases h
      exact ih (by omega) (by omega) h

theorem parseNeg_range {lo acc x : Int} {s : Str} (h0 : acc ≤ 0) (h1 : lo ≤ acc)
    (h : parseNeg lo acc s = .ok x) : lo ≤ x ∧ x ≤ 0 := by
  induction s generalizing acc with
  | nil => cases h; exact ⟨h1, h0⟩
  | cons c s ih =>
    rw [parseNeg] at h
    cases hd : digit c with
    | none => rw [hd] at h; cases h
    | some d =>
      rw [hd] at h
      simp only at h
      split at h
      · cases h
      split at h
      · cases h
      exact ih (by omega) (by omega) h

/-- Parsed integers are in range. -/
theorem parseInt_range {lo hi x : Int} (h0 : lo ≤ 0) (h1 : 0 ≤ hi) {s : Str}
    (h : parseInt lo hi s = .ok x) : lo ≤ x ∧ x ≤ hi := by
  have pos : ∀ {s}, parsePos hi 0 s = .ok x → lo ≤ x ∧ x ≤ hi := fun h => by
    have := parsePos_range (le_refl _) h1 h; omega
  unfold parseInt at h
  split at h
  · cases h
  · cases h
  · cases h
  · exact pos h
  · split at h
    · have := parseNeg_range (le_refl _) h0 h; omega
    · cases h
  · exact pos h

/-- The integer types have plain text. -/
theorem plain (lo hi : Int) : PlainText (MInt lo hi) := by
  have hmem : ∀ (p : MInt lo hi) (c : Char), c ∈ Text.fmt p → c = '-' ∨ (digit c).isSome = true :=
    fun p c h => fmt_mem h
  refine ⟨fun p => ?_, fun p h => ?_, fun p h => ?_, fun p h => ?_, fun p h => ?_, fun t p => ?_⟩
  · change parse (fmtInt p.1) = _
    rw [parse, parseInt_fmt p.2.1 p.2.2]
    simp only
    rw [dif_pos p.2]
  · have := hmem p _ h; revert this; decide
  · have := hmem p 'Ø' (h.subset (by simp)); revert this; decide
  · have := hmem p '∞' (h.subset (by simp)); revert this; decide
  · have := hmem p '∞' (h.subset (by simp)); revert this; decide
  · have : ∀ c, c = '(' ∨ c = '[' → (Text.parse (c :: t) : Except IntError (MInt lo hi)) ≠ .ok p := by
      intro c hc
      change parse (c :: t) ≠ _
      rw [parse, parseInt_bracket lo hi t c hc]
      simp
    exact ⟨this _ (.inl rfl), this _ (.inr rfl)⟩

end MInt
end NI
