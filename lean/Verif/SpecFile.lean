import Verif.Model.Parse
import Verif.Model.TineTree
import Verif.Spec

/-! # Specification: a tree written to a file, one interval a line, and read back (C139) -/

namespace NI

/-- A line without the carriage return that may end it; the line is given backwards. -/
def Str.endLine : Str → Str
  | '\r' :: s => s.reverse
  | s => s.reverse

/-- `str::lines`; `acc` is the line begun, backwards. -/
def Str.linesFrom : Str → Str → List Str
  | acc, [] => if acc = [] then [] else [acc.reverse]
  | acc, c :: s => if c = '\n' then Str.endLine acc :: linesFrom [] s else linesFrom (c :: acc) s

/-- `str::lines`. -/
def Str.lines (s : Str) : List Str := linesFrom [] s

variable {α ε : Type _} [LinearOrder α] [Text α ε]

/-- `for i in tree.interval_iter() { writeln!(file, "{}", i) }`. -/
def TineTree.write (dbg : Bool) (t : TineTree α) : Except Panic Str := do
  return (← t.intervals dbg).flatMap fun i => i.display ++ ['\n']

/-- Parse the lines in turn, up to the first error. -/
def RawInterval.parseLines : List Str → Except Panic (Except (IntervalParseError ε) (List (RawInterval α)))
  | [] => .ok (.ok [])
  | l :: ls => do
    match ← RawInterval.fromStr (α := α) l with
    | .error e => .ok (.error e)
    | .ok i =>
      match ← parseLines ls with
      | .error e => .ok (.error e)
      | .ok is => .ok (.ok (i :: is))

/-- `file.lines().map(str::parse).collect::<Result<Vec<RawInterval<T>>, _>>()?.into_iter().collect::<TineTree<T>>()`. -/
def TineTree.read (dbg : Bool) (s : Str) : Except Panic (Except (IntervalParseError ε) (TineTree α)) := do
  match ← RawInterval.parseLines (α := α) s.lines with
  | .error e => .ok (.error e)
  | .ok is => .ok (.ok (← TineTree.fromIter dbg is))

/-- The text of a value has no line breaks in it. -/
def OneLine (α : Type _) {ε : Type _} [Text α ε] : Prop := ∀ p : α, '\n' ∉ Text.fmt p ∧ '\r' ∉ Text.fmt p

end NI
