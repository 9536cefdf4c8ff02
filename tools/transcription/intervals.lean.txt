import Verif.Model.Unwind
import Verif.Model.RawInterval
open NI
abbrev V := MInt 0 5
instance : Fact ((0:Int) ≤ 5) := ⟨by decide⟩
def v (n : Nat) : V := if h : (0:Int) ≤ n ∧ (n:Int) ≤ 5 then ⟨n, h⟩ else ⟨0, by decide⟩
def pn (x : V) : String := toString x.1
def pk : Panic → String
  | .unreachable => "!unreachable" | .expect => "!expect" | .debugAssert => "!debugAssert"
  | .explicit => "!explicit" | .overflow => "!overflow" | .slice => "!slice"
def pb : NI.Bound V → String
  | .incl x => "i" ++ pn x | .excl x => "e" ++ pn x | .inf => "oo"
def pt : Tine V → String
  | .lower b => "L" ++ pb b | .point b => "P" ++ pb b | .upper b => "U" ++ pb b
def ptree (t : TineTree V) : String := "[" ++ " ".intercalate (t.map pt) ++ "]"
def pr : RawInterval V → String
  | .empty => "empty" | .point p => s!"point {pn p}" | .opn l r => s!"open {pn l} {pn r}"
  | .leftOpen l r => s!"lo {pn l} {pn r}" | .rightOpen l r => s!"ro {pn l} {pn r}"
  | .closed l r => s!"closed {pn l} {pn r}" | .upTo p => s!"upto {pn p}" | .upFrom p => s!"upfrom {pn p}"
  | .to p => s!"to {pn p}" | .frm p => s!"from {pn p}" | .full => "full"
def po {β} (f : β → String) : Option β → String | none => "-" | some x => f x
def tr {β} (f : β → String) : Except Panic β → String | .ok x => f x | .error p => pk p
def pB (b : Bool) : String := if b then "True" else "False"
def calls {S β} (f : β → String) (nx nb : S → Except Panic (Option β × S)) (mask : Nat) : Nat → Nat → S → List String
  | 0, _, _ => []
  | n+1, k, s => match (if (mask >>> k) % 2 == 0 then nx s else nb s) with
    | .ok (o, s) => po f o :: calls f nx nb mask n (k+1) s
    | .error p => [pk p]
def masks : List Nat := [0, 0x3ff, 0b0110101101, 0b1010010110]
def query (dbg sel : Bool) (a b : TineTree V) : String := Id.run do
  let sa : Selection V := ⟨a⟩
  let sb : Selection V := ⟨b⟩
  let mut r : List String := []
  for m in masks do
    r := r ++ [",".intercalate (if sel then
      calls (fun i : Interval V => pr i.raw) (Selection.intervalNext dbg) (Selection.intervalNextBack dbg) m 8 0 (TineIter.start a)
      else calls pr (TineIter.next dbg) (TineIter.nextBack dbg) m 8 0 (TineIter.start a))]
  if sel then
    for m in masks do
      r := r ++ [",".intercalate (calls pn (PointIter.next dbg) (PointIter.nextBack dbg) m 9 0 (PointIter.start sa))]
  r := r ++ [String.join ((List.range 6).map fun n => tr (fun b => if b then "1" else "0") (if sel then sa.contains dbg (v n) else a.contains dbg (v n)))]
  r := r ++ [po pb a.lowerBound ++ po pb a.upperBound]
  if sel then
    r := r ++ [tr (po pb) (sa.lowerBound dbg), tr (po pb) (sa.upperBound dbg), tr pB (sa.isBounded dbg),
      tr pB (sa.isLeftBounded dbg), tr pB (sa.isRightBounded dbg), tr pB (sa.isHalfBounded dbg), po pn sa.infimum ++ po pn sa.supremum]
  r := r ++ [pB (if sel then sa.isEmpty else a.isEmpty) ++ pB (if sel then sa.isFull else a.isFull)]
  r := r ++ (if sel then [tr (fun i => pr i.raw) (sa.enclose dbg), tr (fun i => pr i.raw) (sa.closure dbg)]
    else [tr pr (a.enclose dbg), tr pr (a.closure dbg)])
  r := r ++ [if sel then tr pB (sa.intersects dbg sb) else tr (fun t => pB (!t.isEmpty)) (a.intersect dbg b)]
  return ";".intercalate r
def mk (k l r : Nat) : RawInterval V :=
  let l := v l; let r := v r
  match k with
  | 0 => .mkOpen l r | 1 => .mkLeftOpen l r | 2 => .mkRightOpen l r | 3 => .mkClosed l r | 4 => .point l
  | 5 => .upTo l | 6 => .upFrom l | 7 => .to l | 8 => .frm l | 9 => .full | _ => .empty
def mkI (k l r : Nat) : Interval V :=
  let l := v l; let r := v r
  match k with
  | 0 => .mkOpen l r | 1 => .mkLeftOpen l r | 2 => .mkRightOpen l r | 3 => .mkClosed l r | 4 => .point l
  | 5 => .unboundedUpTo l | 6 => .unboundedUpFrom l | 7 => .unboundedTo l | 8 => .unboundedFrom l | 9 => .full | _ => .empty
def step (dbg sel : Bool) (a b : TineTree V) (op k l r : Nat) : String × TineTree V × TineTree V :=
  let sa : Selection V := ⟨a⟩
  let sb : Selection V := ⟨b⟩
  let pure' (e : Except Panic (TineTree V)) := match e with | .ok t => (ptree t, t, b) | .error p => (pk p, a, b)
  let sl (e : Except Panic (Selection V)) := pure' (e.map Selection.tree)
  -- the plain and the unwinding version must agree as well
  let both (e : Except Panic (TineTree V)) (u : Unwind V (TineTree V)) := match e, u with
    | .ok t, .ok t' => ((if t = t' then ptree t else "DIFF"), t, b)
    | .error p, .error (p', t') => (pk p ++ (if pk p == pk p' then "" else "DIFF") ++ ptree t', a, b)
    | _, _ => ("DIFF", a, b)
  match op with
  | 0 => if sel then both ((sa.unionInPlace dbg (mkI k l r)).map Selection.tree) (sa.unionInPlaceU dbg (mkI k l r)) else both (a.unionInPlace dbg (mk k l r)) (a.unionInPlaceU dbg (mk k l r))
  | 1 => if sel then both ((sa.minusInPlace dbg (mkI k l r)).map Selection.tree) (sa.minusInPlaceU dbg (mkI k l r)) else both (a.minusInPlace dbg (mk k l r)) (a.minusInPlaceU dbg (mk k l r))
  | 2 => if sel then both ((sa.intersectInPlace dbg (mkI k l r)).map Selection.tree) (sa.intersectInPlaceU dbg (mkI k l r)) else both (a.intersectInPlace dbg (mk k l r)) (a.intersectInPlaceU dbg (mk k l r))
  | 3 => if sel then sl (sa.complement dbg) else pure' (a.complement dbg)
  | 4 => if sel then sl (sa.union dbg sb) else pure' (a.union dbg b)
  | 5 => if sel then sl (sa.minus dbg sb) else pure' (a.minus dbg b)
  | 6 => if sel then sl (sa.intersect dbg sb) else pure' (a.intersect dbg b)
  | 7 => (ptree b, b, a)
  | 8 => (ptree a, a, a)
  | _ => let t := if sel then (Selection.ofInterval (mkI k l r)).tree else TineTree.fromRawInterval (mk k l r)
         (ptree t, t, b)
partial def go (dbg sel : Bool) (a b : TineTree V) (acc : Array String) : List Nat → String
  | op :: k :: l :: r :: rest =>
    let (o, a, b) := step dbg sel a b op k l r
    go dbg sel a b (acc.push o) rest
  | _ => "|".intercalate (acc.push (query dbg sel a b)).toList
def R6 := (List.range 6).map v
def ivs : List (RawInterval V) := [.empty, .full] ++ R6.map .point ++ R6.map .upTo ++ R6.map .upFrom ++ R6.map .to ++ R6.map .frm
  ++ (R6.flatMap fun l => R6.map fun r => .opn l r) ++ (R6.flatMap fun l => R6.map fun r => .leftOpen l r)
  ++ (R6.flatMap fun l => R6.map fun r => .rightOpen l r) ++ (R6.flatMap fun l => R6.map fun r => .closed l r)
def ps (l : List (RawInterval V)) := ",".intercalate (l.map pr)
def b1 (b : Bool) := if b then "1" else "0"
def main : IO Unit := do
  for a in ivs do
    IO.println (";".intercalate [pr a, pr a.normalized, pr a.denormalized, ps a.complement, pr a.closure, po pn a.infimum, po pn a.supremum, String.join (R6.map fun x => b1 (a.contains x))])
  for a in ivs do
    for b in ivs do
      IO.println (";".intercalate [pr (a.intersect b), ps (a.union b), ps (a.minus b), pr (a.enclose b), b1 (a.isAdjacentTo b), b1 (a.intersects b)])
  let arr := ivs.toArray
  let mut x := 12345
  for _ in List.range 20000 do
    x := (x*1103515245+12345) % 2147483648
    let n := (x / 256) % 6
    let mut l := []
    for _ in List.range n do
      x := (x*1103515245+12345) % 2147483648
      l := l ++ [arr.getD ((x/256) % arr.size) .empty]
    IO.println (ps (RawInterval.unionAll l))
