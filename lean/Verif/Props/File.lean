import Verif.SpecFile
import Verif.Props.Parse
import Verif.Props.More
import Verif.Props.Canon

/-!
# C139: a tree written to a file, one interval a line, and read back
-/

set_option linter.unusedVariables false
set_option linter.unusedSectionVars false

namespace NI
open RawInterval

theorem Str.linesFrom_line : ∀ (l acc s : Str), '\n' ∉ l → Str.linesFrom acc (l ++ '\n' :: s) =
    Str.endLine (l.reverse ++ acc) :: Str.linesFrom [] s
  | [], acc, s, _ => by simp [Str.linesFrom]
  | c :: l, acc, s, h => by
    have hc : c ≠ '\n' := fun e => h (by simp [e])
    rw [List.cons_append, Str.linesFrom, if_neg hc, Str.linesFrom_line l (c :: acc) s fun hm => h (by simp [hm])]
    simp

theorem Str.endLine_reverse {l : Str} (h : '\r' ∉ l) : Str.endLine l.reverse = l := by
  cases e : l.reverse with
  | nil => rw [List.reverse_eq_nil_iff] at e; subst e; rfl
  | cons c r =>
    have hc : c ≠ '\r' := fun hc => h (by rw [← List.mem_reverse, e, hc]; simp)
    rw [Str.endLine, ← e, List.reverse_reverse]
    intro s hs
    exact hc (by cases hs; rfl)

theorem Str.lines_flatMap : ∀ (ls : List Str), (∀ l ∈ ls, '\n' ∉ l ∧ '\r' ∉ l) →
    Str.lines (ls.flatMap fun l => l ++ ['\n']) = ls
  | [], _ => rfl
  | l :: ls, h => by
    have ih := Str.lines_flatMap ls fun m hm => h m (by simp [hm])
    rw [Str.lines] at ih ⊢
    rw [List.flatMap_cons, List.append_assoc, List.singleton_append,
      Str.linesFrom_line l [] _ (h l (by simp)).1, List.append_nil, Str.endLine_reverse (h l (by simp)).2, ih]

variable {α ε : Type} [LinearOrder α] [Text α ε]

theorem RawInterval.display_line (h : OneLine α) (i : RawInterval α) : '\n' ∉ i.display ∧ '\r' ∉ i.display := by
  cases i <;> simp [RawInterval.display, (h _).1, (h _).2]

theorem RawInterval.parseLines_display (h : PlainText α) : ∀ (is : List (RawInterval α)), (∀ i ∈ is, i.WF) →
    RawInterval.parseLines (α := α) (is.map RawInterval.display) = .ok (.ok is)
  | [], _ => rfl
  | i :: is, hw => by
    rw [List.map_cons, RawInterval.parseLines, C13_round_trip h i (hw i (by simp))]
    simp only [bind, Except.bind]
    rw [RawInterval.parseLines_display h is fun j hj => hw j (by simp [hj])]

theorem OneLine.int {lo hi : Int} : OneLine (MInt lo hi) := fun p => by
  have := MInt.parse_chars ((MInt.plain lo hi).round p)
  constructor <;> intro h <;> have := this _ h <;> revert this <;> decide

/-- Lines with the texts of intervals are read as the intervals. -/
theorem TineTree.read_lines (dbg : Bool) (h : PlainText α) (hl : OneLine α) (is : List (RawInterval α))
    (hw : ∀ i ∈ is, i.WF) : TineTree.read (α := α) dbg (is.flatMap fun i => i.display ++ ['\n']) =
      (TineTree.fromIter dbg is).map .ok := by
  have : (is.flatMap fun i => i.display ++ ['\n']) = (is.map RawInterval.display).flatMap fun l => l ++ ['\n'] := by
    rw [List.flatMap_map]
  rw [TineTree.read, this, Str.lines_flatMap _ (by
    intro l hm
    obtain ⟨i, -, rfl⟩ := List.mem_map.1 hm
    exact i.display_line hl), RawInterval.parseLines_display h is hw]
  simp only [bind, Except.bind]
  cases TineTree.fromIter dbg is <;> rfl

/-! ## C139 -/

/-- A tree written line by line is read back unchanged. -/
theorem C139_round_trip (dbg : Bool) (h : PlainText α) (hl : OneLine α) (t : TineTree α) (ht : t.Reachable) :
    ∃ s, t.write dbg = .ok s ∧ TineTree.read (α := α) dbg s = .ok (.ok t) := by
  obtain ⟨is, e, hc, hu⟩ := C71_intervals_canonical dbg t ht
  have hw : ∀ i ∈ is, i.WF := fun i hi => (((TT.canonical_iff is).1 hc).1 i hi).1
  refine ⟨_, by rw [TineTree.write, e]; rfl, ?_⟩
  rw [TineTree.read_lines dbg h hl is hw, (hu is hc).2 rfl]
  rfl

/-- Over the integer types. -/
theorem C139_integers {lo hi : Int} (dbg : Bool) (t : TineTree (MInt lo hi)) (ht : t.Reachable) :
    ∃ s, t.write dbg = .ok s ∧ TineTree.read (α := MInt lo hi) dbg s = .ok (.ok t) :=
  C139_round_trip dbg (MInt.plain lo hi) .int t ht

/-- The signed bytes from -3 up to 7 without 7, and 9. -/
example : TineTree.intervals true [.lower (.incl (MInt.lit (-3) : I8)), .upper (.excl (MInt.lit 7)), .point (.incl (MInt.lit 9))] =
      .ok [.rightOpen (MInt.lit (-3)) (MInt.lit 7), .point (MInt.lit 9)] ∧
    ([.rightOpen (MInt.lit (-3)) (MInt.lit 7), .point (MInt.lit 9)] : List (RawInterval I8)).flatMap
      (fun i => i.display ++ ['\n']) = ['[', '-', '3', ',', '7', ')', '\n', '9', '\n'] ∧
    TineTree.read (α := I8) true ['9', '\n', '[', '-', '3', ',', '7', ')', '\r', '\n'] =
      .ok (.ok [.lower (.incl (MInt.lit (-3))), .upper (.excl (MInt.lit 7)), .point (.incl (MInt.lit 9))]) :=
  ⟨by decide, by
    have h : ∀ n < 10, MInt.digits n = [Char.ofNat (48 + n)] := fun n hn => by rw [MInt.digits, if_pos hn]; rfl
    simp only [display, Text.fmt, MInt.fmtInt, MInt.lit]
    simp [h], by decide⟩

/-- Trees are equal exactly if they are written alike. -/
theorem C139_injective (dbg : Bool) (h : PlainText α) (hl : OneLine α) (t u : TineTree α) (ht : t.Reachable)
    (hu : u.Reachable) : t.write dbg = u.write dbg ↔ t = u := by
  refine ⟨fun e => ?_, fun e => e ▸ rfl⟩
  obtain ⟨s, h1, h2⟩ := C139_round_trip dbg h hl t ht
  obtain ⟨s', h3, h4⟩ := C139_round_trip dbg h hl u hu
  rw [h1, h3] at e
  cases e
  rw [h2] at h4
  exact Except.ok.inj (Except.ok.inj h4)

/-- The lines can be in any order. -/
theorem C139_any_order (dbg : Bool) (h : PlainText α) (hl : OneLine α) (t : TineTree α) (ht : t.Reachable)
    (is js : List (RawInterval α)) (e : t.intervals dbg = .ok is) (hp : is.Perm js) :
    TineTree.read (α := α) dbg (js.flatMap fun i => i.display ++ ['\n']) = .ok (.ok t) := by
  obtain ⟨is', e', hc, hu⟩ := C71_intervals_canonical dbg t ht
  rw [e] at e'; cases e'
  have hw : ∀ i ∈ is, i.WF := fun i hi => (((TT.canonical_iff is).1 hc).1 i hi).1
  obtain ⟨u, h1, h2, -⟩ := C43_collect dbg is js hw hp
  rw [(hu is hc).2 rfl] at h1; cases h1
  rw [TineTree.read_lines dbg h hl js fun i hi => hw i (hp.mem_iff.2 hi), h2]
  rfl

/-- Two files read as one give the union. -/
theorem C139_together (dbg : Bool) (h : PlainText α) (hl : OneLine α) (t u : TineTree α) (ht : t.Reachable)
    (hu : u.Reachable) : ∃ s s' w, t.write dbg = .ok s ∧ u.write dbg = .ok s' ∧ t.union dbg u = .ok w ∧
      TineTree.read (α := α) dbg (s ++ s') = .ok (.ok w) := by
  obtain ⟨is, e, hc, hi⟩ := C71_intervals_canonical dbg t ht
  obtain ⟨js, f, hd, hj⟩ := C71_intervals_canonical dbg u hu
  have hw : ∀ i ∈ is ++ js, i.WF := fun i hi => by
    rcases List.mem_append.1 hi with hi | hi
    · exact (((TT.canonical_iff is).1 hc).1 i hi).1
    · exact (((TT.canonical_iff js).1 hd).1 i hi).1
  obtain ⟨w, e1, hr, -⟩ := C40_union dbg t u ht hu
  refine ⟨_, _, w, by rw [TineTree.write, e]; rfl, by rw [TineTree.write, f]; rfl, e1, ?_⟩
  rw [← List.flatMap_append, TineTree.read_lines dbg h hl _ hw]
  have h1 := (hi is hc).2 rfl
  rw [TineTree.fromIter] at h1 ⊢
  rw [List.foldlM_append, h1]
  have vu := TT.reachable_valid hu
  rw [TT.intervals_eq dbg vu] at f
  cases f
  rw [TineTree.union, TT.fold_eq dbg _ vu] at e1
  simp only [bind, Except.bind]
  rw [e1]
  rfl

/-- Reading never panics, whatever the text, and what is read is a proper tree. -/
theorem C139_any_text (dbg : Bool) (s : Str) : ∃ r, TineTree.read (α := α) dbg s = .ok r ∧ ∀ t, r = .ok t → t.Reachable := by
  have key : ∀ ls : List Str, ∃ r, RawInterval.parseLines (α := α) ls = .ok r ∧
      ∀ is, r = .ok is → ∀ i ∈ is, i.WF := by
    intro ls
    induction ls with
    | nil => exact ⟨_, rfl, fun is h => by cases h; simp⟩
    | cons l ls ih =>
      obtain ⟨r, e, hr⟩ := ih
      obtain ⟨q, hq⟩ := C14_total (α := α) l
      rw [RawInterval.parseLines, hq]
      simp only [bind, Except.bind]
      cases q with
      | error x => exact ⟨_, rfl, fun is h => by cases h⟩
      | ok i =>
        rw [e]
        cases r with
        | error x => exact ⟨_, rfl, fun is h => by cases h⟩
        | ok is =>
          refine ⟨_, rfl, fun js h => ?_⟩
          cases h
          intro j hj
          rcases List.mem_cons.1 hj with rfl | hj
          · exact C14_wf l _ hq
          · exact hr is rfl j hj
  obtain ⟨r, e, hr⟩ := key s.lines
  rw [TineTree.read, e]
  simp only [bind, Except.bind]
  cases r with
  | error x => exact ⟨_, rfl, fun is h => by cases h⟩
  | ok is =>
    obtain ⟨t, e1, h1⟩ := TT.fromIter_ok dbg is (hr is rfl)
    refine ⟨.ok t, ?_, fun u h => by cases h; exact TT.valid_reachable h1.1⟩
    simp only [e1]

/-- A line that is no interval gives an error. -/
example : (match TineTree.read (α := I8) true ['9', '\n', '(', '7'] with | .ok (.error .invalidInterval) => true | _ => false) =
    true := by decide

end NI
