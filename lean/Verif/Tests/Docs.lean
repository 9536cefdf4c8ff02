import Verif.Model.Selection
import Verif.Model.Parse

/-!
# The documentation examples of the crate and the tests of `src/test/raw_interval/parse.rs`

Generated by `tools/gen_tests.py`, as `Verif.Tests.RawInterval`.
-/

set_option linter.unusedVariables false
set_option linter.unusedSimpArgs false

namespace NI.Tests

/-- A literal of type `i32`. -/
def i (n : Int) (h : -2147483648 ≤ n ∧ n ≤ 2147483647 := by decide) : I32 := ⟨n, h⟩

/-- `collect`, for at most twenty points. -/
def pull (next : Interval I32 → Except Panic (Option I32 × Interval I32)) (s : Interval I32) : List I32 :=
  go 20 s
where
  go : Nat → Interval I32 → List I32
    | 0, _ => []
    | n + 1, s =>
      match next s with
      | .ok (some x, s) => x :: go n s
      | _ => []

-- src/bound.rs:60
example : ((.incl (i (15))) : Bound I32).isFinite = true := by decide

-- src/bound.rs:63
example : (.inf : Bound I32).isFinite = false := by decide

-- src/bound.rs:85
example : ((.incl (i (15))) : Bound I32).isInclusive = true := by decide

-- src/bound.rs:88
example : ((.excl (i (15))) : Bound I32).isInclusive = false := by decide

-- src/bound.rs:110
example : ((.excl (i (15))) : Bound I32).isExclusive = true := by decide

-- src/bound.rs:113
example : ((.incl (i (15))) : Bound I32).isExclusive = false := by decide

-- src/bound.rs:140
example : ((.excl (i (34))) : Bound I32).asRef = (some (i (34))) := by decide

-- src/bound.rs:211
example : ((.excl (i (34))) : Bound I32).unwrap = .ok (i (34)) := by decide

-- src/bound.rs:223
example : (.inf : Bound I32).unwrap = .error .explicit := by decide

-- src/bound.rs:247
example : (.excl 34 : Bound Nat).unwrapOr 15 = 34 := by decide

-- src/bound.rs:248
example : (.inf : Bound Nat).unwrapOr 15 = 15 := by decide

-- src/bound.rs:272
example : (.excl 34 : Bound Nat).unwrapOrElse (fun _ => 2 * 10) = 34 := by decide

-- src/bound.rs:273
example : (.inf : Bound Nat).unwrapOrElse (fun _ => 2 * 10) = 20 := by decide

-- src/bound.rs:303
example : (.incl 10 : Bound Nat).map (fun v => v) = .incl 10 := by decide

-- src/bound.rs:329
example : (.incl 10 : Bound Nat).mapOr 6 (fun k => k * 2) = 20 := by decide

-- src/bound.rs:355
example : (.incl 10 : Bound Nat).mapOrElse (fun _ => 6) (fun k => k * 2) = 20 := by decide

-- src/bound.rs:356
example : (.inf : Bound Nat).mapOrElse (fun _ => 6) (fun k => k * 2) = 6 := by decide

-- src/bound.rs:388
example : (Bound.transfer (α := I32) (.excl (i (34))) (i (18))) = (.excl (i (18))) := by decide

-- src/interval.rs:103
example : (Interval.new (.excl (i (-3))) (.excl (i (7))) : Interval I32) = (Interval.new (.incl (i (-2))) (.incl (i (6))) : Interval I32) := by decide

-- src/interval.rs:119
example : (Interval.new (.excl (i (7))) (.excl (i (-7))) : Interval I32) = (Interval.empty : Interval I32) := by decide

-- src/interval.rs:200
example : (Interval.mkOpen (i (-3)) (i (7)) : Interval I32) = (Interval.new (.incl (i (-2))) (.incl (i (6))) : Interval I32) := by decide

-- src/interval.rs:216
example : (Interval.mkOpen (i (7)) (i (-7)) : Interval I32) = (Interval.empty : Interval I32) := by decide

-- src/interval.rs:254
example : (Interval.mkLeftOpen (i (-3)) (i (7)) : Interval I32) = (Interval.new (.incl (i (-2))) (.incl (i (7))) : Interval I32) := by decide

-- src/interval.rs:270
example : (Interval.mkLeftOpen (i (7)) (i (-7)) : Interval I32) = (Interval.empty : Interval I32) := by decide

-- src/interval.rs:286
example : (Interval.mkLeftOpen (i (5)) (i (5)) : Interval I32) = (Interval.point (i (5)) : Interval I32) := by decide

-- src/interval.rs:324
example : (Interval.mkRightOpen (i (-3)) (i (7)) : Interval I32) = (Interval.new (.incl (i (-3))) (.incl (i (6))) : Interval I32) := by decide

-- src/interval.rs:340
example : (Interval.mkRightOpen (i (7)) (i (-7)) : Interval I32) = (Interval.empty : Interval I32) := by decide

-- src/interval.rs:356
example : (Interval.mkRightOpen (i (5)) (i (5)) : Interval I32) = (Interval.point (i (5)) : Interval I32) := by decide

-- src/interval.rs:392
example : (Interval.mkClosed (i (7)) (i (-7)) : Interval I32) = (Interval.empty : Interval I32) := by decide

-- src/interval.rs:408
example : (Interval.mkClosed (i (5)) (i (5)) : Interval I32) = (Interval.point (i (5)) : Interval I32) := by decide

-- src/interval.rs:446
example : (Interval.mkLeftClosed (i (-3)) (i (7)) : Interval I32) = (Interval.new (.incl (i (-3))) (.incl (i (6))) : Interval I32) := by decide

-- src/interval.rs:462
example : (Interval.mkLeftClosed (i (7)) (i (-7)) : Interval I32) = (Interval.empty : Interval I32) := by decide

-- src/interval.rs:478
example : (Interval.mkLeftClosed (i (5)) (i (5)) : Interval I32) = (Interval.point (i (5)) : Interval I32) := by decide

-- src/interval.rs:516
example : (Interval.mkRightClosed (i (-3)) (i (7)) : Interval I32) = (Interval.new (.incl (i (-2))) (.incl (i (7))) : Interval I32) := by decide

-- src/interval.rs:532
example : (Interval.mkRightClosed (i (7)) (i (-7)) : Interval I32) = (Interval.empty : Interval I32) := by decide

-- src/interval.rs:548
example : (Interval.mkRightClosed (i (5)) (i (5)) : Interval I32) = (Interval.point (i (5)) : Interval I32) := by decide

-- src/interval.rs:588
example : (Interval.unboundedFrom (i (7)) : Interval I32) = (Interval.new (.incl (i (7))) (.incl (i 2147483647)) : Interval I32) := by decide

-- src/interval.rs:628
example : (Interval.unboundedTo (i (7)) : Interval I32) = (Interval.new (.incl (i (-2147483648))) (.incl (i (7))) : Interval I32) := by decide

-- src/interval.rs:668
example : (Interval.unboundedUpFrom (i (7)) : Interval I32) = (Interval.new (.incl (i (8))) (.incl (i 2147483647)) : Interval I32) := by decide

-- src/interval.rs:708
example : (Interval.unboundedUpTo (i (7)) : Interval I32) = (Interval.new (.incl (i (-2147483648))) (.incl (i (6))) : Interval I32) := by decide

-- src/interval.rs:747
example : (Interval.full : Interval I32) = (Interval.new (.incl (i (-2147483648))) (.incl (i 2147483647)) : Interval I32) := by decide

-- src/interval.rs:773
example : (Interval.mkClosed (i (0)) (i (4)) : Interval I32).intoNonEmpty = (some (Interval.mkClosed (i (0)) (i (4)) : Interval I32)) := by decide

-- src/interval.rs:776
example : (Interval.empty : Interval I32).intoNonEmpty = none := by decide

-- src/interval.rs:809
example : (Interval.mkClosed (i (-3)) (i (5)) : Interval I32).lowerBound = (some (.incl (i (-3)))) := by decide

-- src/interval.rs:827
example : (Interval.mkOpen (i (-3)) (i (5)) : Interval I32).lowerBound = (some (.incl (i (-2)))) := by decide

-- src/interval.rs:853
example : (Interval.mkClosed (i (-3)) (i (5)) : Interval I32).upperBound = (some (.incl (i (5)))) := by decide

-- src/interval.rs:871
example : (Interval.mkOpen (i (-3)) (i (5)) : Interval I32).upperBound = (some (.incl (i (4)))) := by decide

-- src/interval.rs:894
example : (Interval.mkClosed (i (-3)) (i (5)) : Interval I32).infimum = (some (i (-3))) := by decide

-- src/interval.rs:911
example : (Interval.mkOpen (i (-3)) (i (5)) : Interval I32).infimum = (some (i (-2))) := by decide

-- src/interval.rs:935
example : (Interval.mkClosed (i (-3)) (i (5)) : Interval I32).supremum = (some (i (5))) := by decide

-- src/interval.rs:952
example : (Interval.mkOpen (i (-3)) (i (5)) : Interval I32).supremum = (some (i (4))) := by decide

-- src/interval.rs:973
example : (Interval.mkClosed (i (-3)) (i (7)) : Interval I32).size (fun a b => a.checkedSub b.1) = .ok (some (i (10))) := by decide

-- src/interval.rs:999
example : (Interval.mkClosed (i (-3)) (i (5)) : Interval I32).isEmpty = false := by decide

-- src/interval.rs:1002
example : (Interval.empty : Interval I32).isEmpty = true := by decide

-- src/interval.rs:1022
example : (Interval.mkClosed (i (-3)) (i (5)) : Interval I32).isDegenerate = false := by decide

-- src/interval.rs:1025
example : (Interval.point (i (4)) : Interval I32).isDegenerate = true := by decide

-- src/interval.rs:1045
example : (Interval.mkClosed (i (-3)) (i (5)) : Interval I32).isProper = true := by decide

-- src/interval.rs:1048
example : (Interval.point (i (4)) : Interval I32).isProper = false := by decide

-- src/interval.rs:1051
example : (Interval.empty : Interval I32).isProper = false := by decide

-- src/interval.rs:1073
example : (Interval.mkLeftOpen (i (-3)) (i (5)) : Interval I32).isOpen = false := by decide

-- src/interval.rs:1076
example : (Interval.point (i (4)) : Interval I32).isOpen = false := by decide

-- src/interval.rs:1090
example : (Interval.empty : Interval I32).isOpen = true := by decide

-- src/interval.rs:1093
example : (Interval.full : Interval I32).isOpen = false := by decide

-- src/interval.rs:1115
example : (Interval.mkLeftOpen (i (-3)) (i (5)) : Interval I32).isLeftOpen = false := by decide

-- src/interval.rs:1118
example : (Interval.mkClosed (i (2)) (i (4)) : Interval I32).isLeftOpen = false := by decide

-- src/interval.rs:1132
example : (Interval.unboundedTo (i (4)) : Interval I32).isLeftOpen = false := by decide

-- src/interval.rs:1135
example : (Interval.full : Interval I32).isLeftOpen = false := by decide

-- src/interval.rs:1159
example : (Interval.mkRightOpen (i (-3)) (i (5)) : Interval I32).isRightOpen = false := by decide

-- src/interval.rs:1162
example : (Interval.mkClosed (i (2)) (i (4)) : Interval I32).isRightOpen = false := by decide

-- src/interval.rs:1176
example : (Interval.unboundedFrom (i (4)) : Interval I32).isRightOpen = false := by decide

-- src/interval.rs:1179
example : (Interval.full : Interval I32).isRightOpen = false := by decide

-- src/interval.rs:1203
example : (Interval.mkLeftOpen (i (-3)) (i (5)) : Interval I32).isHalfOpen = false := by decide

-- src/interval.rs:1206
example : (Interval.mkClosed (i (2)) (i (4)) : Interval I32).isHalfOpen = false := by decide

-- src/interval.rs:1220
example : (Interval.unboundedTo (i (4)) : Interval I32).isHalfOpen = false := by decide

-- src/interval.rs:1223
example : (Interval.full : Interval I32).isHalfOpen = false := by decide

-- src/interval.rs:1246
example : (Interval.mkClosed (i (-3)) (i (5)) : Interval I32).isClosed = true := by decide

-- src/interval.rs:1249
example : (Interval.mkLeftOpen (i (-2)) (i (4)) : Interval I32).isClosed = true := by decide

-- src/interval.rs:1263
example : (Interval.empty : Interval I32).isClosed = true := by decide

-- src/interval.rs:1266
example : (Interval.full : Interval I32).isClosed = true := by decide

-- src/interval.rs:1290
example : (Interval.mkClosed (i (-3)) (i (5)) : Interval I32).isLeftClosed = true := by decide

-- src/interval.rs:1293
example : (Interval.mkLeftOpen (i (-2)) (i (4)) : Interval I32).isLeftClosed = true := by decide

-- src/interval.rs:1317
example : (Interval.mkClosed (i (-3)) (i (5)) : Interval I32).isRightClosed = true := by decide

-- src/interval.rs:1320
example : (Interval.mkRightOpen (i (-2)) (i (4)) : Interval I32).isRightClosed = true := by decide

-- src/interval.rs:1344
example : (Interval.unboundedTo (i (-3)) : Interval I32).isHalfClosed = false := by decide

-- src/interval.rs:1347
example : (Interval.mkOpen (i (-2)) (i (4)) : Interval I32).isHalfClosed = false := by decide

-- src/interval.rs:1371
example : (Interval.mkOpen (i (-2)) (i (4)) : Interval I32).isLeftBounded = true := by decide

-- src/interval.rs:1374
example : (Interval.unboundedTo (i (-3)) : Interval I32).isLeftBounded = true := by decide

-- src/interval.rs:1399
example : (Interval.mkOpen (i (-2)) (i (4)) : Interval I32).isLeftBounded = true := by decide

-- src/interval.rs:1402
example : (Interval.unboundedTo (i (-3)) : Interval I32).isLeftBounded = true := by decide

-- src/interval.rs:1426
example : (Interval.mkOpen (i (-2)) (i (4)) : Interval I32).isRightBounded = true := by decide

-- src/interval.rs:1429
example : (Interval.unboundedFrom (i (-3)) : Interval I32).isRightBounded = true := by decide

-- src/interval.rs:1452
example : (Interval.unboundedTo (i (-2)) : Interval I32).isHalfBounded = false := by decide

-- src/interval.rs:1455
example : (Interval.full : Interval I32).isHalfBounded = false := by decide

-- src/interval.rs:1480
example : (Interval.mkClosed (i (0)) (i (20)) : Interval I32).contains (i (2)) = true := by decide

-- src/interval.rs:1482
example : (Interval.mkClosed (i (0)) (i (20)) : Interval I32).contains (i (-15)) = false := by decide

-- src/interval.rs:1507
example : (Interval.mkClosed (i (-3)) (i (5)) : Interval I32).intersects (Interval.mkClosed (i (4)) (i (15)) : Interval I32) = true := by decide

-- src/interval.rs:1511
example : (Interval.mkClosed (i (-3)) (i (5)) : Interval I32).intersects (Interval.mkClosed (i (8)) (i (12)) : Interval I32) = false := by decide

-- src/interval.rs:1532
example : (Interval.mkClosed (i (-3)) (i (5)) : Interval I32).isAdjacentTo (Interval.mkClosed (i (5)) (i (15)) : Interval I32) = true := by decide

-- src/interval.rs:1536
example : (Interval.mkClosed (i (-3)) (i (5)) : Interval I32).isAdjacentTo (Interval.mkClosed (i (8)) (i (12)) : Interval I32) = false := by decide

-- src/interval.rs:1562
example : (Interval.mkOpen (i (-3)) (i (5)) : Interval I32).complement = [(Interval.unboundedTo (i (-3)) : Interval I32), (Interval.unboundedFrom (i (5)) : Interval I32)] := by decide

-- src/interval.rs:1587
example : (Interval.mkClosed (i (-3)) (i (7)) : Interval I32).intersect (Interval.mkClosed (i (4)) (i (13)) : Interval I32) = (Interval.mkClosed (i (4)) (i (7)) : Interval I32) := by decide

-- src/interval.rs:1609
example : (Interval.mkClosed (i (-3)) (i (7)) : Interval I32).union (Interval.mkClosed (i (4)) (i (13)) : Interval I32) = [(Interval.mkClosed (i (-3)) (i (13)) : Interval I32)] := by decide

-- src/interval.rs:1635
example : (Interval.mkClosed (i (-3)) (i (7)) : Interval I32).minus (Interval.mkClosed (i (4)) (i (13)) : Interval I32) = [(Interval.mkRightOpen (i (-3)) (i (4)) : Interval I32)] := by decide

-- src/interval.rs:1661
example : (Interval.mkClosed (i (-3)) (i (5)) : Interval I32).enclose (Interval.mkClosed (i (9)) (i (13)) : Interval I32) = (Interval.mkClosed (i (-3)) (i (13)) : Interval I32) := by decide

-- src/interval.rs:1682
example : (Interval.mkOpen (i (-3)) (i (7)) : Interval I32).closure = (Interval.mkClosed (i (-2)) (i (6)) : Interval I32) := by decide

-- src/interval.rs:1802
example : pull Interval.next (Interval.mkOpen (i (3)) (i (7)) : Interval I32) = [(i (4)), (i (5)), (i (6))] := by decide

-- src/interval.rs:1816
example : pull Interval.nextBack (Interval.mkOpen (i (3)) (i (7)) : Interval I32) = [(i (6)), (i (5)), (i (4))] := by decide

-- src/selection.rs:132
example : ∀ dbg : Bool, (((.ok (Selection.ofInterval (Interval.mkClosed (i (-3)) (i (5)) : Interval I32))) >>= fun s => s.lowerBound dbg) : Except Panic _) =
    .ok (some (.incl (i (-3)))) := by decide

-- src/selection.rs:151
example : ∀ dbg : Bool, (((.ok (Selection.ofInterval (Interval.mkOpen (i (-3)) (i (5)) : Interval I32))) >>= fun s => s.lowerBound dbg) : Except Panic _) =
    .ok (some (.incl (i (-2)))) := by decide

-- src/selection.rs:178
example : ∀ dbg : Bool, (((.ok (Selection.ofInterval (Interval.mkClosed (i (-3)) (i (5)) : Interval I32))) >>= fun s => s.upperBound dbg) : Except Panic _) =
    .ok (some (.incl (i (5)))) := by decide

-- src/selection.rs:197
example : ∀ dbg : Bool, (((.ok (Selection.ofInterval (Interval.mkOpen (i (-3)) (i (5)) : Interval I32))) >>= fun s => s.upperBound dbg) : Except Panic _) =
    .ok (some (.incl (i (4)))) := by decide

-- src/selection.rs:222
example : ∀ dbg : Bool, (((.ok (Selection.ofInterval (Interval.mkOpen (i (-3)) (i (5)) : Interval I32))) >>= fun s => .ok s.infimum) : Except Panic _) =
    .ok (some (i (-3))) := by decide

-- src/selection.rs:240
example : ∀ dbg : Bool, (((.ok (Selection.ofInterval (Interval.mkOpen (i (-3)) (i (5)) : Interval I32))) >>= fun s => .ok s.infimum) : Except Panic _) =
    .ok (some (i (-3))) := by decide

-- src/selection.rs:266
example : ∀ dbg : Bool, (((.ok (Selection.ofInterval (Interval.mkOpen (i (-3)) (i (5)) : Interval I32))) >>= fun s => .ok s.supremum) : Except Panic _) =
    .ok (some (i (5))) := by decide

-- src/selection.rs:284
example : ∀ dbg : Bool, (((.ok (Selection.ofInterval (Interval.mkOpen (i (-3)) (i (5)) : Interval I32))) >>= fun s => .ok s.supremum) : Except Panic _) =
    .ok (some (i (5))) := by decide

-- src/selection.rs:310
example : ∀ dbg : Bool, (((.ok (Selection.ofInterval (Interval.mkClosed (i (-3)) (i (5)) : Interval I32))) >>= fun s => .ok s.isEmpty) : Except Panic _) =
    .ok false := by decide

-- src/selection.rs:313
example : ∀ dbg : Bool, (((.ok (Selection.ofInterval (Interval.empty : Interval I32))) >>= fun s => .ok s.isEmpty) : Except Panic _) =
    .ok true := by decide

-- src/selection.rs:335
example : ∀ dbg : Bool, (((.ok (Selection.ofInterval (Interval.mkClosed (i (-3)) (i (5)) : Interval I32))) >>= fun s => .ok s.isFull) : Except Panic _) =
    .ok false := by decide

-- src/selection.rs:338
example : ∀ dbg : Bool, (((.ok (Selection.ofInterval (Interval.full : Interval I32))) >>= fun s => .ok s.isFull) : Except Panic _) =
    .ok true := by decide

-- src/selection.rs:360
example : (Interval.mkOpen (i (-2)) (i (4)) : Interval I32).isLeftBounded = true := by decide

-- src/selection.rs:363
example : (Interval.unboundedTo (i (-3)) : Interval I32).isLeftBounded = true := by decide

-- src/selection.rs:385
example : ∀ dbg : Bool, (((.ok (Selection.ofInterval (Interval.mkOpen (i (-2)) (i (4)) : Interval I32))) >>= fun s => s.isLeftBounded dbg) : Except Panic _) =
    .ok true := by decide

-- src/selection.rs:388
example : ∀ dbg : Bool, (((.ok (Selection.ofInterval (Interval.unboundedTo (i (-3)) : Interval I32))) >>= fun s => s.isLeftBounded dbg) : Except Panic _) =
    .ok true := by decide

-- src/selection.rs:411
example : ∀ dbg : Bool, (((.ok (Selection.ofInterval (Interval.mkOpen (i (-2)) (i (4)) : Interval I32))) >>= fun s => s.isRightBounded dbg) : Except Panic _) =
    .ok true := by decide

-- src/selection.rs:414
example : ∀ dbg : Bool, (((.ok (Selection.ofInterval (Interval.unboundedFrom (i (-3)) : Interval I32))) >>= fun s => s.isRightBounded dbg) : Except Panic _) =
    .ok true := by decide

-- src/selection.rs:436
example : ∀ dbg : Bool, (((.ok (Selection.ofInterval (Interval.unboundedTo (i (-2)) : Interval I32))) >>= fun s => s.isHalfBounded dbg) : Except Panic _) =
    .ok false := by decide

-- src/selection.rs:439
example : ∀ dbg : Bool, (((.ok (Selection.ofInterval (Interval.full : Interval I32))) >>= fun s => s.isHalfBounded dbg) : Except Panic _) =
    .ok false := by decide

-- src/selection.rs:463
example : ∀ dbg : Bool, (((.ok (Selection.ofInterval (Interval.mkClosed (i (0)) (i (20)) : Interval I32))) >>= fun s => s.contains dbg (i (2))) : Except Panic _) =
    .ok true := by decide

-- src/selection.rs:465
example : ∀ dbg : Bool, (((.ok (Selection.ofInterval (Interval.mkClosed (i (0)) (i (20)) : Interval I32))) >>= fun s => s.contains dbg (i (-15))) : Except Panic _) =
    .ok false := by decide

-- src/selection.rs:491
example : ∀ dbg : Bool, (((.ok (Selection.ofInterval (Interval.mkClosed (i (-3)) (i (5)) : Interval I32))) >>= fun a => (.ok (Selection.ofInterval (Interval.mkClosed (i (4)) (i (15)) : Interval I32))) >>= fun b => a.intersects dbg b) : Except Panic _) =
    .ok true := by decide

-- src/selection.rs:495
example : ∀ dbg : Bool, (((.ok (Selection.ofInterval (Interval.mkClosed (i (-3)) (i (5)) : Interval I32))) >>= fun a => (.ok (Selection.ofInterval (Interval.mkClosed (i (8)) (i (12)) : Interval I32))) >>= fun b => a.intersects dbg b) : Except Panic _) =
    .ok false := by decide

-- src/selection.rs:522
example : ∀ dbg : Bool, ((((.ok (Selection.ofInterval (Interval.mkOpen (i (-3)) (i (5)) : Interval I32))) >>= fun s => s.complement dbg) >>= fun s => s.intervals dbg) : Except Panic _) =
    .ok [(Interval.unboundedTo (i (-3)) : Interval I32), (Interval.unboundedFrom (i (5)) : Interval I32)] := by decide

-- src/selection.rs:545
example : ∀ dbg : Bool, ((((.ok (Selection.ofInterval (Interval.mkClosed (i (-3)) (i (5)) : Interval I32))) >>= fun s => s.complement dbg) >>= fun s => s.intervals dbg) : Except Panic _) =
    .ok [(Interval.mkClosed (i (-2147483648)) (i (-4)) : Interval I32), (Interval.mkClosed (i (6)) (i 2147483647) : Interval I32)] := by decide

-- src/selection.rs:571
example : ∀ dbg : Bool, ((((.ok (Selection.ofInterval (Interval.mkClosed (i (-3)) (i (7)) : Interval I32))) >>= fun a => (.ok (Selection.ofInterval (Interval.mkClosed (i (4)) (i (13)) : Interval I32))) >>= fun b => a.intersect dbg b) >>= fun s => s.intervals dbg) : Except Panic _) =
    .ok [(Interval.mkClosed (i (4)) (i (7)) : Interval I32)] := by decide

-- src/selection.rs:590
example : ∀ dbg : Bool, ((((.ok (Selection.ofInterval (Interval.mkOpen (i (-3)) (i (7)) : Interval I32))) >>= fun a => (.ok (Selection.ofInterval (Interval.mkOpen (i (4)) (i (13)) : Interval I32))) >>= fun b => a.intersect dbg b) >>= fun s => s.intervals dbg) : Except Panic _) =
    .ok [(Interval.mkClosed (i (5)) (i (6)) : Interval I32)] := by decide

-- src/selection.rs:614
example : ∀ dbg : Bool, ((((.ok (Selection.ofInterval (Interval.mkClosed (i (-3)) (i (7)) : Interval I32))) >>= fun a => (.ok (Selection.ofInterval (Interval.mkClosed (i (4)) (i (13)) : Interval I32))) >>= fun b => a.union dbg b) >>= fun s => s.intervals dbg) : Except Panic _) =
    .ok [(Interval.mkClosed (i (-3)) (i (13)) : Interval I32)] := by decide

-- src/selection.rs:633
example : ∀ dbg : Bool, ((((.ok (Selection.ofInterval (Interval.mkOpen (i (-3)) (i (7)) : Interval I32))) >>= fun a => (.ok (Selection.ofInterval (Interval.mkOpen (i (4)) (i (13)) : Interval I32))) >>= fun b => a.union dbg b) >>= fun s => s.intervals dbg) : Except Panic _) =
    .ok [(Interval.mkClosed (i (-2)) (i (12)) : Interval I32)] := by decide

-- src/selection.rs:657
example : ∀ dbg : Bool, ((((.ok (Selection.ofInterval (Interval.mkClosed (i (-3)) (i (7)) : Interval I32))) >>= fun a => (.ok (Selection.ofInterval (Interval.mkClosed (i (4)) (i (13)) : Interval I32))) >>= fun b => a.minus dbg b) >>= fun s => s.intervals dbg) : Except Panic _) =
    .ok [(Interval.mkRightOpen (i (-3)) (i (4)) : Interval I32)] := by decide

-- src/selection.rs:683
example : ∀ dbg : Bool, ((((.ok (Selection.ofInterval (Interval.mkOpen (i (-3)) (i (5)) : Interval I32))) >>= fun a => (.ok (Selection.ofInterval (Interval.mkClosed (i (9)) (i (13)) : Interval I32))) >>= fun b => a.union dbg b) >>= fun s => s.enclose dbg) : Except Panic _) =
    .ok (Interval.mkLeftOpen (i (-3)) (i (13)) : Interval I32) := by decide

-- src/selection.rs:708
example : ∀ dbg : Bool, ((((.ok (Selection.ofInterval (Interval.mkOpen (i (-3)) (i (5)) : Interval I32))) >>= fun a => (.ok (Selection.ofInterval (Interval.mkClosed (i (9)) (i (13)) : Interval I32))) >>= fun b => a.union dbg b) >>= fun s => s.enclose dbg) : Except Panic _) =
    .ok (Interval.mkClosed (i (-2)) (i (13)) : Interval I32) := by decide

-- src/selection.rs:735
example : ∀ dbg : Bool, ((((.ok (Selection.ofInterval (Interval.mkClosed (i (-3)) (i (7)) : Interval I32))) >>= fun s => s.intersectInPlace dbg (Interval.mkOpen (i (2)) (i (5)) : Interval I32)) >>= fun s => s.intervals dbg) : Except Panic _) =
    .ok [(Interval.mkOpen (i (2)) (i (5)) : Interval I32)] := by decide

-- src/selection.rs:755
example : ∀ dbg : Bool, ((((.ok (Selection.ofInterval (Interval.mkClosed (i (-3)) (i (7)) : Interval I32))) >>= fun s => s.intersectInPlace dbg (Interval.mkOpen (i (2)) (i (5)) : Interval I32)) >>= fun s => s.intervals dbg) : Except Panic _) =
    .ok [(Interval.mkClosed (i (3)) (i (4)) : Interval I32)] := by decide

-- src/selection.rs:778
example : ∀ dbg : Bool, ((((.ok (Selection.ofInterval (Interval.mkClosed (i (-3)) (i (7)) : Interval I32))) >>= fun s => s.unionInPlace dbg (Interval.mkOpen (i (12)) (i (15)) : Interval I32)) >>= fun s => s.intervals dbg) : Except Panic _) =
    .ok [(Interval.mkClosed (i (-3)) (i (7)) : Interval I32), (Interval.mkOpen (i (12)) (i (15)) : Interval I32)] := by decide

-- src/selection.rs:798
example : ∀ dbg : Bool, ((((.ok (Selection.ofInterval (Interval.mkOpen (i (-3)) (i (8)) : Interval I32))) >>= fun s => s.unionInPlace dbg (Interval.mkOpen (i (7)) (i (10)) : Interval I32)) >>= fun s => s.intervals dbg) : Except Panic _) =
    .ok [(Interval.mkClosed (i (-2)) (i (9)) : Interval I32)] := by decide

-- src/selection.rs:821
example : ∀ dbg : Bool, ((((.ok (Selection.ofInterval (Interval.mkClosed (i (-3)) (i (7)) : Interval I32))) >>= fun s => s.minusInPlace dbg (Interval.mkOpen (i (2)) (i (5)) : Interval I32)) >>= fun s => s.intervals dbg) : Except Panic _) =
    .ok [(Interval.mkClosed (i (-3)) (i (2)) : Interval I32), (Interval.mkClosed (i (5)) (i (7)) : Interval I32)] := by decide

-- src/selection.rs:841
example : ∀ dbg : Bool, ((((.ok (Selection.ofInterval (Interval.mkClosed (i (-3)) (i (7)) : Interval I32))) >>= fun s => s.minusInPlace dbg (Interval.mkClosed (i (2)) (i (5)) : Interval I32)) >>= fun s => s.intervals dbg) : Except Panic _) =
    .ok [(Interval.mkClosed (i (-3)) (i (1)) : Interval I32), (Interval.mkClosed (i (6)) (i (7)) : Interval I32)] := by decide

-- src/test/raw_interval/parse.rs:35
example : (RawInterval.empty : RawInterval I32).display = ['Ø'] := by
  simp [RawInterval.display, Text.fmt, MInt.fmtInt, MInt.digits, i]
example : RawInterval.fromStr ['Ø'] = .ok (.ok (RawInterval.empty : RawInterval I32)) := by decide

-- src/test/raw_interval/parse.rs:45
example : (RawInterval.point (i 3) : RawInterval I32).display = ['3'] := by
  simp [RawInterval.display, Text.fmt, MInt.fmtInt, MInt.digits, i]
example : RawInterval.fromStr ['3'] = .ok (.ok (RawInterval.point (i 3) : RawInterval I32)) := by decide

-- src/test/raw_interval/parse.rs:55
example : (RawInterval.opn (i 0) (i 3) : RawInterval I32).display = ['(', '0', ',', '3', ')'] := by
  simp [RawInterval.display, Text.fmt, MInt.fmtInt, MInt.digits, i]
example : RawInterval.fromStr ['(', '0', ',', '3', ')'] = .ok (.ok (RawInterval.opn (i 0) (i 3) : RawInterval I32)) := by decide

-- src/test/raw_interval/parse.rs:65
example : (RawInterval.leftOpen (i 0) (i 3) : RawInterval I32).display = ['(', '0', ',', '3', ']'] := by
  simp [RawInterval.display, Text.fmt, MInt.fmtInt, MInt.digits, i]
example : RawInterval.fromStr ['(', '0', ',', '3', ']'] = .ok (.ok (RawInterval.leftOpen (i 0) (i 3) : RawInterval I32)) := by decide

-- src/test/raw_interval/parse.rs:75
example : (RawInterval.rightOpen (i 0) (i 3) : RawInterval I32).display = ['[', '0', ',', '3', ')'] := by
  simp [RawInterval.display, Text.fmt, MInt.fmtInt, MInt.digits, i]
example : RawInterval.fromStr ['[', '0', ',', '3', ')'] = .ok (.ok (RawInterval.rightOpen (i 0) (i 3) : RawInterval I32)) := by decide

-- src/test/raw_interval/parse.rs:85
example : (RawInterval.closed (i 0) (i 3) : RawInterval I32).display = ['[', '0', ',', '3', ']'] := by
  simp [RawInterval.display, Text.fmt, MInt.fmtInt, MInt.digits, i]
example : RawInterval.fromStr ['[', '0', ',', '3', ']'] = .ok (.ok (RawInterval.closed (i 0) (i 3) : RawInterval I32)) := by decide

-- src/test/raw_interval/parse.rs:96
example : (RawInterval.upTo (i 3) : RawInterval I32).display = ['(', '-', '∞', ',', '3', ')'] := by
  simp [RawInterval.display, Text.fmt, MInt.fmtInt, MInt.digits, i]
example : RawInterval.fromStr ['(', '-', '∞', ',', '3', ')'] = .ok (.ok (RawInterval.upTo (i 3) : RawInterval I32)) := by decide

-- src/test/raw_interval/parse.rs:106
example : (RawInterval.upFrom (i 3) : RawInterval I32).display = ['(', '3', ',', '∞', ')'] := by
  simp [RawInterval.display, Text.fmt, MInt.fmtInt, MInt.digits, i]
example : RawInterval.fromStr ['(', '3', ',', '∞', ')'] = .ok (.ok (RawInterval.upFrom (i 3) : RawInterval I32)) := by decide

-- src/test/raw_interval/parse.rs:116
example : (RawInterval.to (i 3) : RawInterval I32).display = ['(', '-', '∞', ',', '3', ']'] := by
  simp [RawInterval.display, Text.fmt, MInt.fmtInt, MInt.digits, i]
example : RawInterval.fromStr ['(', '-', '∞', ',', '3', ']'] = .ok (.ok (RawInterval.to (i 3) : RawInterval I32)) := by decide

-- src/test/raw_interval/parse.rs:126
example : (RawInterval.frm (i 3) : RawInterval I32).display = ['[', '3', ',', '∞', ')'] := by
  simp [RawInterval.display, Text.fmt, MInt.fmtInt, MInt.digits, i]
example : RawInterval.fromStr ['[', '3', ',', '∞', ')'] = .ok (.ok (RawInterval.frm (i 3) : RawInterval I32)) := by decide

-- src/test/raw_interval/parse.rs:136
example : (RawInterval.full : RawInterval I32).display = ['(', '-', '∞', ',', '∞', ')'] := by
  simp [RawInterval.display, Text.fmt, MInt.fmtInt, MInt.digits, i]
example : RawInterval.fromStr ['(', '-', '∞', ',', '∞', ')'] = .ok (.ok (RawInterval.full : RawInterval I32)) := by decide

end NI.Tests
