# Design

Target: `solarretrace/normalize-interval-rs` (crate `normalize_interval` 0.17.0), source in `/repo`.
The crate is a library of sets of points of an ordered type: single intervals (`RawInterval`,
normalizing wrapper `Interval`) and unions of intervals (`TineTree`, wrapper `Selection`).

## Layout

* `lean/Verif/Model/*.lean` – the code, function by function, each definition citing file and lines.
* `lean/Verif/Spec.lean` and the other `Spec*.lean` – small independent vocabulary used to state the
  properties (well-formedness, laws of `Finite`, histories of trees and selections, sets of points,
  double-ended walks, text forms, programs).
* `lean/Verif/Lemmas/*.lean` – proof machinery; nothing here is a claim.
* `lean/Verif/Props/*.lean` – one theorem (or a few) per property, named `Cnn_…`, each followed by
  an `example` with a concrete non-trivial instance.  `Cnn_…_partial` proves less than the property
  says; `Cnn_…_iff` says exactly when the property, false in general, holds; `Cnn_…_counterexample` proves that the property, as written, is false of the code.
* `lean/Verif/Tests/*.lean` – the crate's own unit tests and documentation examples, run on the model.
* `tools/` – the scripts that generate `properties.jsonl`, `MANIFEST.json` and the tests.
* `MANIFEST.json` – property → theorem names → status.
* `seeded/LOG.jsonl` – mutation testing log.

## How the code is modelled

* Element type: any `LinearOrder α` (Mathlib).  `T: Ord + Clone` is assumed lawful: `<`, `==`, `cmp`
  agree and form a total order; `clone` returns an equal value.
* `Finite`: a class with `MINIMUM`, `MAXIMUM`, `pred`, `succ`; theorems over finite types assume the
  laws `LawfulFinite` (MINIMUM/MAXIMUM are least/greatest, `pred`/`succ` are the immediate
  neighbours and `None` exactly at the ends).  All 12 integer instances of the macro are proved to
  satisfy them.
* Panics (`unreachable!`, `expect`, `panic!`, `debug_assert!`, overflow) are `Except.error` values.
  `dbg : Bool` selects a debug or release build; theorems quantify over it.
* `&mut self` functions take the tree and return the new tree.
* `BTreeSet<Tine<T>>` is the list of its elements in order; `insert`, `take`, `split_off`, `append`,
  `from_iter`, `iter` are modelled on that list.
* Iterators are explicit states with `next`/`next_back`; `for` loops and `collect` run them with
  fuel that bounds the number of remaining items (fuel sufficiency is proved).
* `few::Few` and all `impl Iterator` results are lists in iteration order.
* Strings are `List Char`; `T: Display + FromStr` is a codec with stated laws, instantiated with
  decimal integers.

## Trusted base

* The Lean kernel, and at most the axioms `propext`, `Classical.choice`, `Quot.sound`. Collected for all
  property theorems with `Lean.collectAxioms`: about a tenth use `propext` alone (mainly the
  counterexamples), another tenth `propext` and `Quot.sound`, all others the three. No other axioms, no
  `sorry`, no `native_decide`, no `bv_decide`.
* That the definitions in `Verif/Model` say what the Rust says. Every function of `/repo/src` is modelled except
  those listed below; each definition cites its lines.
* Trusted about the outside: `BTreeSet` behaves as a list sorted by `Tine::cmp` as long as the list *is* sorted
  (after an operation that leaves a corrupt tree, the model searches the list linearly where the real tree
  searches nodes; only counterexamples look at such states); std `Option` and iterator adaptors;
  `few::Few` yields its elements in order; derived `PartialEq` is structural equality; std integer
  `FromStr`/`Display` as in `Model/Parse`; `char`/byte indices of `str` slices as in `Model/Parse`.
* Serde: the code generated by the derives, `Deserialize for BTreeSet` (one insertion per element), and file formats
  that give back the data they were given (`Model/Serde`).
* Hash: the code generated by the derives and by `Hash for BTreeSet` (length, then the elements in order), as in
  `Model/Hash`.
* Not modelled: `Debug`, `Clone`/`Copy` derives; `normalized`/`denormalized` default methods other than as
  the functions they call; memory and time behaviour; unlawful user `Ord` implementations (other than the
  `PartialOrd` of floats for `Bound`, C92).

## Per property

"cases" = case analysis on interval variants over a linear order; "coverage" = the tree machinery
described below. Where a property is false of the code, the counterexample theorem is the honest answer
to it and the `_partial` theorems say how much of it is true; the section *Disagreements* lists them.

| id | modelled code | how it is proved, or what is missing |
|----|----|----|
| C01 | `Bound::{least,greatest}_{union,intersect}` | cases; against `AdmitsAbove/AdmitsBelow` |
| C02 | `RawInterval::new`, `open`, `left_open`, `right_open`, `closed` | cases; against Mathlib's `Set.Ioo` … (`RawInterval.pts`) |
| C03 | `intersect` | cases; idempotence is claimed for well formed values only |
| C04–C06 | `complement`, `union`, `minus` | cases; shapes (disjoint, well formed, two parts only if needed) are separate theorems |
| C07 | `enclose` | cases; smallest among intervals by bounds on all orders, by points on dense orders |
| C08 | `is_empty`, `intersects`, `is_adjacent_to` | cases; dense unbounded orders where points are counted |
| C09 | `closure` | cases |
| C10 | `intersect_all` | induction on the argument list |
| C11 | `union_all` | induction; disjointness false in general (see *Disagreements*), proved for inputs in ascending order, and characterised exactly (`C11_exact_iff`) |
| C12 | `enclose_all` | always `Full`; minimality false, exact condition proved |
| C13, C14, C66 | `Display`, `FromStr` (`Model/Parse`) | text as `List Char`; value type is any codec with stated laws, integers instantiated; C66 strictness false after an infinity or the empty sign |
| C15–C19 | `normalize`, `denormalize` | cases over `LawfulFinite`; C17 false for some intervals of at most one point, C18 false for `To`, `From`; both with the exact condition |
| C20 | `Finite` for the 12 integer types | checked machine arithmetic on bounded integers; `C20_ranges` checks the least and greatest value of each type against powers of two |
| C21–C23 | `Interval` constructors, conversions | from C02 and C15; C23 by induction over `Interval.Obtainable`; C22 false exactly for `a..a` |
| C24–C26, C65 | `is_empty`, `is_degenerate`, `is_proper`, `==`, `into_non_empty`, `is_adjacent_to` | exact on `Interval.Real`; otherwise false, exact condition proved |
| C27–C31 | `Interval` set operations, `enclose`, `closure`, `infimum`, `supremum` | from the raw results; C28, C30, C31 false for open intervals between neighbours, exact conditions proved |
| C32 | `Interval` point iterator | simulation of `Walk` (pop least/greatest) for every call sequence |
| C33 | `size` | checked subtraction; right exactly when the difference is representable |
| C34 | `Tine::cmp`, `partial_cmp` | order on positions; panics only on a marker that never occurs |
| C35, C36, C39, C40, C43 | `TineTree` from, union_in_place, complement, union, from_iter | coverage |
| C37, C38 | `minus_in_place`, `intersect_in_place` | coverage; exactly when they are right: `C37_exact_iff`, `C38_exact_iff` (dense orders), `C38_every_order_iff` (all orders) |
| C41, C42 | tree `intersect`, `minus` | analysis of the loops over both interval iterators; the result of `intersect` in closed form and exactly when it is right: `C41_formula`, `C41_exact_iff_together` (`SpecWalk`); the same for `minus`: `C42_formula`, `C42_exact_iff`, `C42_dense_iff`; on every order exactly when the result is right and a proper tree, removals that break the tree and are put right by the next one included: `C42_every_iff` |
| C44, C71 | equality, interval lists | coverage functions determine lists (canonical form) |
| C45, C46, C67, C68 | interval iterators, `FusedIterator` | invariants of the iterator state, all call sequences; backward and mixed iteration right exactly when no single point is missing; point iteration is fused forward for any history and mixed for any history without a missing single point (`C67_forward_any`, `C67_mixed_any`); with one missing, a path of calls is constructed that panics in every build (`C67_exact_iff`, `C68_panic_iff`) |
| C47 | `enclose`, `closure`, `lower_bound`, `upper_bound` | coverage |
| C48, C49, C62 | `Selection` construction, union, complement | tree results + denormalize/normalize; C49 for all expressions by induction |
| C50, C53 | `Selection::minus_in_place`, `minus` | exact result formula, hence exactly when right, on a left operand of any history (`C50_exact_any`, `C53_exact_any`; the missing values that matter are those the complement lists as `Interval::point`), and by points alone on union-built operands; both operands of any history, in terms of the intervals of the trees: `C53_every_iff` |
| C51, C52 | `Selection::intersect_in_place`, `intersect`, `intersects` | `intersect` and `intersects` in closed form for union-built selections (`C52_formula`, `C52_exact_iff`), for any history in terms of the kept intervals (`C52_formula_any`, `C52_exact_any`), for complements exact; `intersect_in_place` right exactly in the cases of `C51_exact_iff`, `C51_exact_any`; false otherwise |
| C54, C55 | `is_empty`, `is_full`, `==` | exact on named histories (`Solid`, `Tidy`, `UnionBuilt`); false otherwise; for any history the exact condition by the reported intervals (`C54_exact_iff`, `C54_is_full_iff`) |
| C56–C58 | `interval_iter`, `iter` | exact on named histories; exact condition for backward (C73) and mixed (`C58_exact_iff`) iteration; for any history the shape of the reported intervals (`C56_shape`) and when forward iteration is right (`C57_forward_iff`) |
| C59–C61 | bounds, predicates, `enclose`, `closure` | exact on named histories; false otherwise; the points of `closure` by formula; for any history the exact condition by the reported intervals (`C59_bounds_iff`, `C60_exact_iff`, `C61_enclose_iff`); `infimum` within one of the bound (`C59_infimum_any`); `closure` for any history is all values from infimum to supremum (`C61_closure_any`) |
| C63, C64 | the other `Bound` functions, raw `infimum`/`supremum` | cases |
| C69, C70 | whole programs (`SelProg`, `SelQuery`) | induction over programs; C70 by showing that each function only gets *more* defined in release builds |
| C72 | `TineTree` against `RawInterval` | canonical form + point sets |
| C73 | iteration from the back | equivalence: the front of the backward run up to the last missing point is computed, then the next item is shown wrong; for selections of any history (`C73_intervals_any`) the intervals found are counted |
| C74, C75, C77, C81, C82 | contracts: the uses of the API without exceptions | from C24–C69 on `UnionBuilt` histories, `Real` intervals, safe programs; when the replacements of C81 give equal selections by the flag machine of C154 and the walk of `intersect` (`Props/StripSame.lean`); C75 for selections of any history by the flag machine, whose removals one after the other come to one formula (`Props/StripRuns.lean`) |
| C76 | `union_all` on sorted arguments | induction, canonical form |
| C83 | owning iterators and conversions (`Model/Owned`) | simulation, for any tree and call sequence |
| C84, C85 | serde derives (`Model/Serde`) | data model of serde; round trip by sortedness; `C84_any_data` says what is read from any list of markers; C85 false, exact conditions proved, for the panic too (`Props/SerdePanic.lean`; it does not depend on how the search in the `BTreeSet` goes: a leaf beyond the first eleven elements has finite ones) |
| C78–C80 | `TineTree::{minus_in_place, intersect, intersect_in_place}` | equivalences; C79, C80 over dense orders |
| C86–C88 | `Selection::{intersect_in_place, intersect, minus_in_place, minus}` | equivalences in terms of points, for union-built selections |
| C89 | `TineTree::minus` | equivalence, dense orders without ends |
| C90 | `union_all` | equivalence by induction from the back of the argument list |
| C91 | `from_str` | equivalence with a grammar |
| C92 | `Bound` over `PartialOrd` (`Model/BoundPartial`) | cases on the comparison; laws of `PartialOrd` as hypotheses, met by a model of floats |
| C93 | all operations of `TineTree` and `Selection` in debug builds (`Built`) | every operation keeps the tines sorted and legal whatever the tree (`Lemmas/Neat`); a tree not in turn fails in forward iteration unless it starts or continues with an excluded point, which the complement turns around |
| C94, C95 | histories; `interval_iter`, `collect` | the trees of selections characterized (`Selection.reachable_iff`), then built piece by piece |
| C96 | number of intervals, all set operations | tines that are not upper bounds are counted (`cnt`), on the splittings used for the operations |
| C97 | value left by a caught panic of an in-place operation | the operations once more, with the state of the tree attached to every panic (`Model/Unwind`); forgetting it gives back the other model; false for `intersect_in_place` (see *Disagreements*), characterised exactly |
| C98 | when `intersect_in_place` of a tree is right | shape of every result (`Lemmas/IsectAll`): the middle part of the tree between at most one bound at each end; the proper ones are compared with the right one point by point |
| C99 | what an implementation of `Finite` has to satisfy | `LawfulFinite` (the hypothesis of all theorems on `Interval` and `Selection`) proved equivalent to point preservation by `normalize`, with arbitrary `Finite` instances; uniqueness and existence from the order alone |
| C100 | when `intersect_in_place` panics, and what it returns otherwise | the same case split over what is covered just below, at and just above both ends as C98, with the panics of `tine_tree.rs:321-430` counted instead of the results (`Lemmas/Goes.lean`) |
| C101 | whole programs are right exactly as long as each step is | denotation `SelProg.denote` by recursion on programs; each step by the exact conditions C50/C51/C52/C53 for selections of any history (`Props/Steps.lean`), which also has the wider no-panic theorem C69_careful_partial |
| C102 | re-collecting makes a canonical copy | coverage argument on the tree: the copy has coverage "point or successor in" exactly if no listed interval is void; equality by C55 (`Props/Collect.lean`) |
| C103 | iterators yield as many points as there are | from the specification predicates `Walk` and `Drain` alone, then C32/C57/C58; `size` by C33 and counting integers (`Props/Tally.lean`) |
| C104 | derived `Hash` (`Model/Hash`: the calls made on the hasher) | prefix freedom by cases and induction; lookups from C55, C26, C44; `hashLookup` (`SpecHash`) is the contract of a hash table (`Props/Hash.lean`); the exact versions of the lookups (`Props/HashExact.lean`) rest on C26, C122 and on trees being determined by what they list |
| C105 | `Interval` and `Selection` operations against each other | C72 (the tree against `RawInterval`) for the kept open form, then cases on the ends; iteration by determinism of `Walk` (`Props/Agree.lean`) |
| C106 | the iterators and every loop over them | each interval uses up a tine, those put aside included, on any tree; fuel-free runs of loops (`SpecLoop.lean`) are unique and are what the fuelled model functions compute (`Props/Stops.lean`) |
| C107 | `union`, `complement`, `is_full` on any history | union and complement are pointwise on the positions of a tree (values and gaps between them), and a valid tree is determined by the positions it covers (`Props/Algebra.lean`) |
| C108 | every function of `Bound`, `RawInterval`, `TineTree`, `Interval`, `Selection` | replacing values (`SpecMap.lean`) commutes with each function, bottom up, by cases on comparisons, which an order embedding does not change (`Lemmas/Natural*.lean`, `Props/Natural.lean`) |
| C109 | every function of `RawInterval`, `TineTree`, `Interval`, `Selection` | `SpecMirror.lean` exchanges the ends; raw level by cases; tree level by cutting the tree at the keys of the interval and comparing both cuts (`Lemmas/MirrorTree.lean`), so that wrong results and panics of the in-place methods are mirrored too; `minus` is expressed as complement, union and the holes it fills (`TT.minus_by_fill`), which are symmetric; for `intersect` the two walks must pair the same intervals, and the condition is exact because different pairs of intervals have disjoint intersections.  Counterexamples for `minus`, `intersect` and backward iteration (`Props/Mirror.lean`) |
| C110 | `RawInterval::{intersect, enclose, intersect_all}`, `Interval::{intersect, enclose}` | `SpecLattice.lean` has expressions and "follows in every lattice"; `RawInterval.wfLattice` is an instance of Mathlib's `Lattice` built from the laws of the four bound functions (`Lemmas/Lattice.lean`); `Interval` operations agree with the raw ones (`Lemmas/LatticeInterval.lean`), so the laws hold where the raw value is well formed, which is `a.intersect(&a) == a`.  Counterexamples for `[3, 4)` and `(3, 4)`; the lattice is not modular (`Props/Lattice.lean`) |
| C111 | `union_in_place`, `minus_in_place`, `intersect_in_place`, `union`, `minus`, `intersect`, `extend` of `TineTree` and `Selection` | coverage of the result of the first call put into the theorem about the second; `TT.no_hole_at_end`: after a removal no end of a removed interval is a hole, so the second removal is exact; `TT.intersectInPlace_twice` and `TT.intersect_exact_iff` for the exact conditions.  Counterexamples for removing, cutting and intersecting (`Props/Twice.lean`); any selection twice by the flag machine of C154, `Props/StripTwice.lean` |
| C112 | the binary operations of `RawInterval`, `Interval`, `TineTree`, `Selection` with equal arguments | raw and interval level by cases; `TT.isectList_self`: the walk of a list against itself stops after the first interval; `TT.minus_eq` with equal arguments leaves the holes.  Counterexample: `{1,2,3,5,6,7}` (`Props/Twice.lean`); after any program by the flag machine of C154, `Props/StripOrder.lean` |
| C113 | the set operations of `TineTree` and of `Selection` (in place), as lists | expected list built from `RawInterval::{enclose, minus, intersect}` (`Interval::{enclose, minus}`) with `List` functions only; shown to consist of separated nonempty intervals with the right coverage (`TT.union_pieces`, `minus_flat`, `minus_fold`, `meets_list`), then `TT.pieces_unique`.  The conditions are those of C37, C41, C50, C80.  For selections the pieces are denormalized runs (`OpenIv.denorm`), and `enclose` commutes with denormalizing. |
| C114 | `TineTree::complement`, `Selection::complement`, as lists | `SpecGaps.lean` builds the gaps from the ends of neighbouring intervals with `List.zip`; `TT.gapsFrom_ok` shows them nonempty, separated and complementary in coverage, then `TT.pieces_unique`; for selections the ends of a denormalized run are the neighbours of its values |
| C115 | the iterators, `enclose`, `closure` and the order of tines on any tree | every interval comes out of `RawInterval::new` or is a point; order: `Neat` (C93) carried through the loops of release builds, which only ever add and remove well formed intervals, and to the trees that panics leave (`Model/Unwind`, `Lemmas/UnwindNeat`) (`SpecAny.lean`, `Props/Sound.lean`).  This also justifies modelling `BTreeSet` by sorted lists and the hypotheses `WF` and `Obtainable` elsewhere |
| C116 | pairs of `union`/`minus` and of `union_in_place`/`minus_in_place` | `TT.minus_eq` gives the coverage of any difference, holes that come in included, so the composition is computed exactly and compared by `TT.valid_ext`; `TT.end_open`: an end at a missing point is an open end; selections by the coverage of denormalized runs.  Counterexamples: adding `[4,5]` to `[1,3]` and removing it leaves another marker, adding `[5,6]` and removing it leaves 4 (`Props/Undo.lean`); after any program by the flag machine of C154, `Props/StripUndo.lean` |
| C117 | sequences of `union_in_place`/`minus_in_place` | `SpecEdit.lean`: what the sequence does to a set.  A step that keeps all it should and adds only what `beside` allows for the removed interval; induction over the sequence (`Edit.track`): a wrong value stays wrong at most until it is added or removed.  Trees by the exact effect of removing a two-ended interval (C37), selections by `minusInPlace_ok`.  `C117_tree_point`: removing the point 1 from `(1,5) ∪ (7,9)` changes `contains` at 3, 6 and 8 (`Props/Local.lean`) |
| C118 | `union`, `complement`, `minus`, `intersect`, `enclose`, `closure` of two comparable values | From the exact formulas C39, C40, C48, C50, C53, C61, C62.  Counterexamples: `[0,1] ∪ [4,5]` intersected with `[0,5]` loses 4 which `[4,5]` keeps; removing `[4,10]` from `{2,4}` puts in 3, removing `[5,10]` does not; all but 3 taken as a complement leaves less than `{2,4}` (`Props/Order.lean`).  For any history `enclose` and `closure` keep the order exactly as their bounds do (`Props/OrderAny.lean`); after any program by the flag machine of C154, `Props/StripOrder.lean` |
| C119 | sequences of `minus_in_place`, and `union_in_place` with `minus_in_place`, in another order | `Lemmas/Swap.lean`: coverage after two removals, single missing points that come in included (`minus_minus_cov`); symmetric except where an end belongs to one interval only, which does not happen for the open intervals that a selection removes.  Results compared by `TT.valid_ext`.  Counterexamples: `[3,5]` and `(5,7)` from `(0,5) ∪ (5,9)`; the point 5 and `(5,7)` from `[0,9]` (`Props/Swap.lean`); after any program by the flag machine of C154, `Props/StripSwap.lean` |
| C120 | histories of `union_in_place`, `minus_in_place`, `complement`, and `union`/`minus` with union-built operands (`Selection.Edited`, `SpecEdit.lean`) | `Lemmas/Crisp.lean`: invariant `Crisp`, the stretch between two neighbours is covered like both of them wherever they agree; kept by each operation (holes that a removal fills included), and equivalent to no interval without values in the tree and in its complement.  Uniqueness of the list of maximal runs: `MaximalRuns.unique` (`Props/Edited.lean`) |
| C121 | a client: `Selection.pool` (`SpecPool.lean`) over `iter().next()`, `union_in_place`, `minus_in_place`, `complement` | `PoolRun` says what users rely on in terms of sets only; `C121_by_complement` by induction over the calls from C48, C120; `C121_in_use` from `C121_no_double` (a fact about `PoolRun`); `C121_take_iff` from C50 and the `Crisp` invariant: below the least value nothing is covered, so only the hole above can be filled; use like a stack by an invariant over the flag machine of C154 (nothing is joined that is not free on one side), `Props/StripPool.lean`; the exact condition from the flags told by the latest event at each number, `Props/StripWedge.lean` |
| C122 | sequences of `union_in_place`, `minus_in_place`, `complement`, then `contains` (`SpecContext.lean`) | `Lemmas/Context.lean`: adding and removing an interval next to a point leaves the point in exactly if the tree reaches it from the other side (C37/C50 formulas: a hole at an end of the removed interval is filled), which reads off the three views of a tree at each point; trees with equal views are equal (`TT.valid_ext_views`) |
| C123 | a network of replicas, as a state machine over lists of events (`SpecNet.lean`) | induction over the events with the invariant that each replica and each message is union-built and has the points of the intervals it stands for; equality from C55 (union-built selections with the same points are equal) (`Props/Net.lean`) |
| C124 | `Selection.steps` (`SpecSpot.lean`): sequences of `union_in_place`, `minus_in_place`, `union`, `minus`, `complement` | `Spot` is a three-bit description of what is around one value, with `add`, `remove`, `not`; `Lemmas/Spot.lean` shows that the coverage of the tree before, at and after the value follows it step by step (C48, C53 formulas and `foldMinus_after`); locality and the closed form for removals are facts about `Spot` alone (`Props/Spot.lean`); `Props/SpotTree.lean` does the same for `TineTree` over any linear order, with `Spot.ofRaw` read off the bounds of a raw interval |
| C125 | `Selection.calendar` (`SpecCalendar.lean`), a loop over `intersects`, `interval_iter` with `Interval::intersects`, or `minus` with `==`, and `union_in_place` | `Bookings` tells what becomes of requests given what clashes; the three tests are shown to decide overlap (C29, C56), touching (`Looks` of C124) and touching the first run (C52 formula, C56); `Props/Calendar.lean`; after any program by the flag machine of C154, `Props/StripBook.lean`; cancellations (`SpecDiary.lean`: `Selection.diary`, `Diary`) by C156 in `Props/StripDiary.lean` |
| C126 | runs of `SelStep` of one kind from any reachable selection | two runs with the same union of values act alike on `before`, `here` and `after` of each value (`Spot` of C124), and trees with the same view are equal (`valid_ext_views`); `Props/SpotRuns.lean`; for given states exactly by the flag machine of C154, `Props/StripCuts.lean` |
| C127 | the six expressions of `SpecWithin.lean` over the modelled operations | equality of union-built selections, views of trees (`Spot` of C124) for `minus` and `complement`, longest runs of C56 for the listed intervals, every interval that `minus` lists has a value; `Props/Within.lean`; the way by `intersects` exactly, position by position, in `Props/Kth.lean`; after any program by the flag machine of C154, `Props/StripAsk.lean` |
| C128 | the six expressions of `SpecApart.lean` over the modelled operations | trees that look alike around each value are equal (`TT.looks_ext`); around each value at most one of two sets is found exactly if they do not touch (`Spot.apart`); `Props/Apart.lean`; `intersects` exactly in `Props/Kth.lean`: until two intervals meet, the walk of C52 compares them position by position; after any program by the flag machine of C154, `Props/StripAsk.lean` |
| C129 | the five expressions of `SpecClip.lean` over the modelled operations | `Spot` of C124 for the removals, the walk of C52 for `intersect` with one interval on either side; `Props/Clip.lean`; whatever the history by the flag machine of C154, `Props/StripSwap.lean` |
| C130 | the expressions of `SpecPatch.lean` over the modelled operations | the formula of C53 after turning the removals of a list into one by C126; what edited selections list by C120; `Props/Patch.lean`; for a copy of any history by the formula of C75 for runs of removals, `Props/StripPatch.lean` |
| C131 | the program of `SpecHeap.lean` over the modelled operations, numbers as the unsigned ranges of `MInt` | induction on the calls; wide blocks by an invariant on the blocks held, numbers in use by the invariant that nothing begins right after a number that is not in; `Props/Heap.lean`; exactly when taking out in place goes wrong, by C157, in `Props/StripHeap.lean` (`SpecHeapCalls.lean`); pages: `SpecHeapPages.lean`, `Props/StripPages.lean` |
| C132 | the receivers of `SpecStream.lean` over the modelled operations | induction on the segments: what is kept is what has been received and not passed on; first run by C120; `Props/Stream.lean`; in place exactly: the tree goes on to each neighbour of a value in it, save before a value that is in without having come; `Props/StreamExact.lean` |
| C133 | `TineTree.intervalsBack`, `Selection.intervalsBack` against `backDebug`, `backRelease` of `SpecBackward.lean` | induction on the tree from its end, the iterator's state summarised by whether a lower end is held back; `Lemmas/Backward.lean`, `Props/Backward.lean` |
| C134 | `PointIter.nextBack` under any number of calls against `Walk` over every other run | the interval iterator's answers call by call (`Lists`), then induction on the number of calls; `Lemmas/BackPoints.lean`, `Props/BackPoints.lean`; in terms of the interval listing for every tree and build (`Turns`) in `Props/BackTurns.lean` |
| C135 | `Selection.eitherBy…`, `toggles`, `clicks` (`SpecToggle.lean`) | `InOne` is the set of values in exactly one; from the exact formulas of C50 and C53 and the laws of C107; `Props/Toggle.lean`; after any program by the flag machine of C154, `Props/StripSwap.lean`; sequences of switches from the empty selection, or after in-place edits of it, by C156, `SpecClicks.lean`, `Props/StripClicks.lean` |
| C136 | the nine expressions of `SpecDense.lean` over the modelled tree operations | canonicity over dense orders (C44), longest pieces (C45), order of intervals (C110), the walk of C41 position by position; `Props/Dense.lean` |
| C137 | `fromPoints`, forward iteration and `intervals` against `sortedOnce` and `asRanges` of `SpecSort.lean` | points collected (C48), forward walk (C57), longest runs (C56), uniqueness of separated ranges with given points; `Props/Sort.lean` |
| C138 | five ways of `SpecNext.lean` over the modelled selection operations, against least and greatest elements of the value set | cover and order of the listed intervals (C56), exact extrema of intersections (C31), forward walk (C57), exact removal with single gaps (C50), bounds (C59); the way by intersect from the walk over one interval (`TT.intersect_one`); `Props/Next.lean`, `Props/NextExact.lean` |
| C139 | `display`, `fromStr`, `intervals` and `fromIter` put together by `write` and `read` of `SpecFile.lean`, with a model of `str::lines` (splits at newlines, drops a carriage return before one) | round trip of one interval (C13), parser totality and well-formedness (C14), canonical lists (C71), order of collection (C43); `Props/File.lean` |
| C140 | `fromStr` with `MInt.parse`, the model of the integer `from_str` of the standard library | numerals and their values stated apart in `SpecNumeral.lean`; `Props/Numeral.lean` from the digit loops, C14 and C66 |
| C141 | `intervals`, `complement` and `size` put together by `longest` and `longestGap` of `SpecLongest.lean`, with a model of `max_by_key` (last of the greatest) | maximal runs (C120) and exact extrema (C31); `Props/Longest.lean` |
| C142 | `union`, `complement`, `intervals`, `intersect` and `fromIntervals` put together by `pileOn` and `pile` of `SpecLevels.lean` | coverage of every place of the trees, by induction over the pile and the intervals; `Props/Levels.lean` |
| C143 | `intervals`, `fromIntervals`, `extend`, `complement`, `minusInPlace`, `size` put together in `SpecRunFilter.lean` | some of the maximal runs of a set are the maximal runs of their union; removals by C124; blocks lie in one run (C141); `Props/RunFilter.lean`, any history in `Props/RunFilterAny.lean` |
| C144 | `intervals`, `infimum`, `supremum`, `mkClosed`, `fromIntervals`, `complement` put together in `SpecPad.lean` | the listed intervals by their ends (C120, C31), integer arithmetic; `Props/Pad.lean`, for any history `Props/PadAny.lean` |
| C145 | `Interval.minus`, `contains`, `unionInPlace`, `minusInPlace`, `complement` put together in `SpecTable.lean` | induction over the changes; `minus` cuts only an interval that contains the first value of the other; `Props/Table.lean`; in place exactly by the flag machine of C154 (`SpecLayers.lean`, `Props/Layers.lean`) |
| C146 | `Interval.intersect`, `minus`, `isEmpty` put together in `SpecSplit.lean` | induction over the intervals; a piece starts at the least value, at the start of an interval or after the end of one; `Props/Split.lean`, with intervals without values `Props/SplitAny.lean` |
| C147 | `Interval.size`, `infimum`, `intersect` and `Selection.intervals` put together in `SpecRank.lean` | the runs partition the values and each has `u - l + 1` of them; for any history an intersection without values has no size; `Props/Rank.lean`, `Props/RankAny.lean` |
| C148 | `Selection.intervals`, `infimum`, `supremum` and `fromIntervals` put together in `SpecBlocks.lean` | each listed `[l,u]` with `l ≤ u` goes onto `[f l, f u]`; a listed interval without values gives a block exactly when both ends are in the same one; `Props/Blocks.lean` |
| C149 | `Selection.intervals`, `infimum`, `supremum`, and a search that may look anywhere in the range (`SpecLookup.lean`) | the supremum of each listed interval is below the infimum of each later one, also of those without values, where the infimum is next after the supremum; `Props/Lookup.lean` |
| C150 | `Selection.intervals`, `Interval.intersect`, `supremum`, `fromIntervals` put together in `SpecLookup.lean` | by induction on both lists, with the order of their ends from C149; `Props/Lookup.lean` |
| C151 | `Interval.intersects`, `enclose`, `infimum`, `supremum`, `succ` put together in `SpecMerge.lean`; any sorted permutation is allowed | by induction on the sorted list with the last interval put out; that it lists what the selection lists by uniqueness of maximal runs; `Props/Merge.lean`, any intervals `Props/MergeAny.lean` |
| C152 | implementations of the trait `Finite` a user writes, in `SpecTypes.lean`; Mathlib's lexicographic order on pairs and sums, `WithBot` for `Option`, `OrderDual` for `Reverse` stand for the derived orders | directly from the laws of the parts; arrays by positions; `Props/Types.lean` |
| C153 | implementations of the trait `Finite` a user writes, in `SpecParts.lean`; a checked wrapper is a subtype, a struct with dependent ranges is Mathlib's lexicographic sigma type | directly from the laws of the underlying type; `Props/Parts.lean` |
| C154 | the flag machine `Strip` and the programs `StripProg` in `SpecStrip.lean`, independent of the tree model | each call keeps the relation `Strip.Of` between tree and machine (from the coverage lemmas of C50-C52); `Lemmas/Strip.lean`, `Props/Strip.lean`; that all flags occur by single values from complements and open intervals between neighbours, `Props/StripEvery.lean`; that the condition on `minus` is needed from what a wrongly removed point leaves (`foldMinus_bad`), `Props/StripMinus.lean` |
| C155 | a client: `Selection.window` (`SpecWindow.lean`) over `union_in_place`, `minus_in_place`, `complement` | `windowSet` and `LoneGapAfter` speak of sets only; an invariant over the flag machine of C154 (a number is joined to the next and, beyond the mark, to the one before) carries the calls; `Props/StripWindow.lean` |
| C156 | a client: `SparseCalls.run` (`SpecSparse.lean`) over `union_in_place` and `minus_in_place` | `there`, `written` and `Bridged` speak of the list of calls only; each flag of the machine of C154 is told by the latest call that reached it; `Paged` makes the latest call that reached a value and its partner the same; the joints are told by the calls whatever went wrong, which gives the values after any calls (`Props/StripFilled.lean`); `Props/StripSparse.lean` |
| C157 | a client: `SparseCalls.runFree` (`SpecFree.lean`) over `full`, `union_in_place` and `minus_in_place` | `there`, `CutAt` and `Cut` speak of the list of calls only; turned round, with all freed first, the calls are those of C156; `Props/StripFree.lean` |

No property was dropped as not expressible.

### Histories

Most `Selection` properties hold for some ways of building the value and not for others. The classes,
all defined in `Spec.lean` by the API calls that may have been made:

* `Reachable` – any calls; of `minus` and `intersect_in_place`, which can leave a corrupt tree, those that do
  not;
* `UnionBuilt` – unions of intervals and points only;
* `Tidy` – `UnionBuilt` or the complement of one;
* `Solid` – `Tidy`, then unions and `minus_in_place`;
* `Carved` – intervals, complements, union-built selections that lack no single point, then
  `minus_in_place` and `minus` of union-built selections;
* `Built` – any calls in debug builds, also on corrupt values (C93);
* `Made` – single intervals, complement, union, intersect (C94: the same as `Reachable`).

`SpecMore.lean` adds syntax for whole programs: `SelProg` (every constructor and set operation),
`SelQuery` (every question), and their `Plain`/`Safe` subsets.

### Tree machinery ("coverage")

A tine list is *valid* when strictly sorted and alternating (a two-state machine open/closed accepts it).
Its meaning is a Boolean function on positions: at x, and just after x. An interval is a range of
positions. Each tree operation that is right is proved to compute the pointwise operation, and equal
functions have equal lists. The splitting of the list at the ends of the operand (`One`, `Two` in
`Lemmas/TreeOps`) follows the code's `split_off`/`take` steps.

## Conformance tests

`lean/Verif/Tests` is generated by `tools/gen_tests.py` from `/repo/src/test` and from the documentation
examples: 2554 assertions, each turned into an `example` about the model, citing its source line, and
proved by `decide`. All hold (only the `as_mut` example is skipped). They
are evidence that the model computes what the code computes; they are not claims.

### A second transcription

`tools/transcription/m.py` writes the same Rust functions out a second time, in Python. It was compared with the
Rust text function by function, and then with the model by running both (the `.lean.txt` files are the Lean
side; rename one to `.lean` and use `lake env lean --run` in `lean/`):

* 302,000 random programs over a domain of six values, on selections and on bare trees, with and without debug
  assertions. Compared: the tree after every step, the kind of panic, the tree a panic leaves, interval and point
  iteration from the front, the back and mixed, and every query. No difference.
* All pairs of the 176 raw intervals over six values, ill-formed ones included, under every operation on raw
  intervals, and 20,000 lists under `union_all`. No difference.

This guards against slips in writing the model down. It does not run the crate, and the same reader wrote both
transcriptions, so a misreading of Rust or of the standard library could be in both. No theorem depends on it.

## Disagreements between code and properties

Each is a theorem `Cnn_counterexample` (or the name given), closed by evaluation of the model on concrete
values (`u8`/`i8` for selections and intervals, integers for raw intervals and trees). Found by reading
and proving, not by running the crate.

* C11 – `union_all([0,1],[4,5],[1,4])` returns `[0,4],[4,5]`, which share 4: one pass merges the new interval
  into the first match only.
* C12 – `enclose_all` always returns `Full`: the fold starts at `Full` (`C12_always_full`).
* C17, C24, C25, C26, C65 – `open(3,4)` contains nothing but normalizes to an inverted `Closed(4,3)`, not
  `Empty`: not `is_empty`, not equal to `empty()`, kept by `into_non_empty`. `left_open(3,4)` contains one
  point but normalizes to `Closed(4,4)`, not `Point(4)`: `is_proper`, not `is_degenerate`, not equal to `point(4)`.
* C18 – denormalizing `(-∞,5]` gives `(-∞,4)`, and `[5,∞)` gives `(6,∞)`: wrong neighbour (`C18_loss`).
  Not visible through `Interval`/`Selection`, whose values are never of these variants.
* C22 – `Interval::from(5..5)` is `{5}`; the empty range contains nothing.
* C28, C30, C31, C32 – such an inverted value misleads the operations: `open(3,4) ∪ open(2,3)` contains 3;
  `{1}` enclosed with `open(3,4)` is `[1,3]`; its infimum is 4, its supremum 3; iterating yields 4.
* C33 – `size` overflows on the full `i8` interval; of `u8` `open(3,4)` it is −1, an underflow.
  In release builds the subtraction wraps (`Model/Release.lean`): `C33_release` says what comes out (−1 and 255 here).
* C37, C42, C50, C53, C72 – `minus_in_place` where a single point is missing: `(-∞,3)∪(3,∞)` minus `[3,5]`
  contains 3; `{2,4}` minus `[4,10]` contains 3. Removing the point 3 from `(0,3)` leaves a corrupt tree on
  which `contains` panics. Not every corrupt tree panics when iterated: `(1,2)∪(2,∞)` minus `{1}` in bounds
  (`C93_complement_needed`) iterates like `(2,∞)`; iterating over its complement panics.
* C38, C51 – `intersect_in_place`: `[0,1]` with `[5,6]` gives `[5,6]`; `[0,2]` with `[0,5]` panics;
  `[2,5]∪[17,19]` with `[2,12]` panics.
* C41, C52 – `intersect` advances both iterators together: `([0,1]∪[4,5])∩[0,5]` misses `[4,5]`. `intersects`
  says that `[0,4]` and `[5,9]` intersect (`C52_intersects_counterexample`).
* C46, C56, C57, C68 – backward iteration over `(0,2)∪(2,4)` or `{2,4}` panics in debug builds and loses items
  in release builds. Two missing points next to each other cancel out: `(0,2)∪(2,4)∪(4,6)` reversed yields
  `(4,6)`, `(0,2)` and `{1,3,5}` reversed yields 5, 1, without a panic in any build
  (`C46_lost_counterexample`, `C57_lost_counterexample`). In release builds values outside the selection may come:
  `{1,5,7}` reversed yields 7, 3 (`C134_counterexample`), `{0,2}` reversed yields 2 and then all of 255 down to 2 (`C134_release_counterexample`). C133 and C134 say exactly what comes.
* C54, C55 – a selection made of `open(3,4)` is not `is_empty`; the union of the complements of `[5,255]` and
  `[0,4]` contains everything and is not `is_full`; hence `==` is not equality of point sets.
* C57 (`C57_phantom_counterexample`) – point iteration can yield values that are not contained.
* C58 – `next` then `next_back` on `[0,2]∪[5,7]` yields 0, then 2.
* C59 – infimum and supremum of `[3,5]` are 2 and 6: taken from the denormalized tree.
* C60 – the empty selection is not `is_bounded`.
* C61 – the closure of `[3,5]` contains 2.
* C66 – `"Ø!"`, `"(-∞!,5]"`, `"[5,!∞)"` parse; `C66_exact_iff` lists all such strings.
* C67 – over `{1,4,6}`: `next_back` 6, then `next` None, then `next` 3 in a release build;
  over `{1,3,20,27,29}`: `next` 1, `next_back` 29, `next` None, `next` 20 in both builds.
* C69 – `{0,4} − ¬{0,2}` panics in every build.
* C70 (`C70_release_goes_on`) – where a debug build stops, a release build goes on: `{0} − ¬{0,2,4}` contains 1.
* C97 – `[0,2]` with `[0,5]`: `intersect_in_place` panics and leaves a single upper bound, on which `contains` panics
  again; `[0,4)∪(4,9]` with `[0,12]`: panics and leaves a tree that no longer contains 1.
* C85 – `{"Open":[3,7]}` is read as an `Interval<u8>` that is not normalized: unequal to `open(3,7)`, iterating over it
  panics. `[{"Upper":{"Include":3}}]` is read as a `Selection<u8>` on which `contains` panics; two
  `{"Point":"Infinite"}` make `deserialize` itself panic.

## Mutation testing

`seeded/LOG.jsonl` has one line per wrong program: one definition of the model is edited like a realistic slip, in a
copy of the project. There are two ways of finding out which theorems fail, given in `method`.

* `proofs`: the build is repaired by replacing each failing proof with `sorry`, until it completes; every property
  theorem that then depends on `sorry` has failed. `failed_directly` are those whose own proof broke. A theorem may be
  listed although it is still true, when its proof only follows the old text.
* `instances`: the project is not rebuilt. The statements of the theorems were written down once more as executable
  checks by hand, over a type of seven values, and evaluated against the edited model; before any edit all of them
  give true. `failed` lists the theorems whose check gave false. That shows the statement false for the edited
  model, as far as the check says what the theorem says; a check that gives true shows nothing beyond the inputs tried,
  and only the checks of some theorems are run for each edit. The checks are in `seeded/checks` (Lean, run with `lake env lean`); they are not part of the build and
  nothing that is claimed to be proved depends on them.

Lines without `method` are edits that Lean did not accept, so nothing was tested. Where no theorem failed, `note` gives
the reason, which is a judgement and not proved. A mutant whose expected property does not fail is a gap; the theorems added for
it are named in `tightened`.
