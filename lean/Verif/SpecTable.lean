import Verif.SpecEdit

/-! # Specification: a table that assigns values to the points of intervals (C145)

The table is a `Vec<(Interval<T>, V)>`; assigning to an interval first takes the interval out of all entries by
`Interval::minus`.  The second kind of table keeps a `Selection` for each value. -/

namespace NI
variable {α V : Type _} [LinearOrder α] [Finite α]

/-- A change of the table: the points of `i` get the value `v`, or none. -/
inductive TableChange (α V : Type _)
  | set (i : Interval α) (v : V)
  | clear (i : Interval α)

/-- The interval of a change. -/
def TableChange.interval : TableChange α V → Interval α
  | .set i _ => i
  | .clear i => i

/-- `table.into_iter().flat_map(|(j, w)| j.minus(&i).map(move |k| (k, w.clone()))).collect()`. -/
def Table.clear (i : Interval α) (t : List (Interval α × V)) : List (Interval α × V) :=
  t.flatMap fun e => (e.1.minus i).map fun k => (k, e.2)

/-- One change: take the interval out of all entries; `table.push((i, v))` if there is a new value. -/
def Table.change (t : List (Interval α × V)) : TableChange α V → List (Interval α × V)
  | .set i v => Table.clear i t ++ [(i, v)]
  | .clear i => Table.clear i t

/-- All changes, beginning with an empty table. -/
def Table.make (cs : List (TableChange α V)) : List (Interval α × V) := cs.foldl Table.change []

/-- `table.iter().find(|e| e.0.contains(x)).map(|e| e.1)`. -/
def Table.get (t : List (Interval α × V)) (x : α) : Option V := (t.find? fun e => e.1.contains x).map Prod.snd

/-- `v` is the value last assigned to `x`: no later change is about `x`. -/
def LastSet (cs : List (TableChange α V)) (x : α) (v : V) : Prop :=
  ∃ before i after, cs = before ++ .set i v :: after ∧ x ∈ i.pts ∧ ∀ c ∈ after, x ∉ c.interval.pts

/-- `*s = s.complement(); s.union_in_place(i); *s = s.complement();` -/
def Selection.takeOut (dbg : Bool) (s : Selection α) (i : Interval α) : Except Panic (Selection α) := do
  (← (← s.complement dbg).unionInPlace dbg i).complement dbg

/-- `for (w, s) in &mut layers { if *w == v { s.union_in_place(i) } else { remove(s, i) } }`. -/
def Layers.paint [DecidableEq V] (remove : Selection α → Interval α → Except Panic (Selection α)) (dbg : Bool)
    (ls : List (V × Selection α)) (c : Interval α × V) : Except Panic (List (V × Selection α)) :=
  ls.mapM fun l => (if l.1 = c.2 then l.2.unionInPlace dbg c.1 else remove l.2 c.1).map fun s => (l.1, s)

/-- Layers for the given values, empty at first, painted one after the other. -/
def Layers.make [DecidableEq V] (remove : Selection α → Interval α → Except Panic (Selection α)) (dbg : Bool)
    (vs : List V) (cs : List (Interval α × V)) : Except Panic (List (V × Selection α)) :=
  cs.foldlM (Layers.paint remove dbg) (vs.map fun v => (v, .new))

end NI
