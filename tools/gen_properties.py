#!/usr/bin/env python3
"""Writes /verif/properties.jsonl (one JSON object per line)."""
import json, os
P = []
def p(title, statement, quantifier, why, *anchors):
    P.append(dict(id="C%02d" % (len(P)+1), title=title, statement=statement, quantifier=quantifier,
                  why_tests_cant=why, anchors=list(anchors)))
BIG = "the type may have 2^128 values and every pair of bounds is an input; tests sample a few literals"
HIST = "the claim ranges over every sequence of earlier operations, i.e. every shape of tree; tests build trees of one or two intervals"

# ---- Bound / RawInterval
p("Bound combinators compute the union/intersection of half-lines",
  "For lower bounds, least_union admits a point iff one of the two bounds does and greatest_intersect iff both do; for upper bounds, greatest_union admits a point iff one does and least_intersect iff both do.",
  "all pairs of bounds and all points of any totally ordered type", BIG, "src/bound.rs:422-438 Bound::least_union", "src/bound.rs:443-467 Bound::least_intersect", "src/bound.rs:472-488 Bound::greatest_union", "src/bound.rs:493-517 Bound::greatest_intersect")
p("RawInterval::new contains exactly the points between its bounds",
  "RawInterval::new(l,u).contains(x) iff x satisfies both bounds, except that two bounds at the same point of which exactly one is inclusive give the one-point interval (documented); the result is never an inverted interval.",
  "all pairs of bounds, all points, any totally ordered type", BIG, "src/raw_interval.rs:92-106 RawInterval::new", "src/raw_interval.rs:114-120 RawInterval::open", "src/raw_interval.rs:128-135 RawInterval::left_open", "src/raw_interval.rs:143-150 RawInterval::right_open", "src/raw_interval.rs:158-165 RawInterval::closed", "src/raw_interval.rs:171-186 RawInterval::contains")
p("RawInterval::intersect is set intersection",
  "a.intersect(b).contains(x) iff a.contains(x) and b.contains(x); the result is well formed when a and b are; as a function on values the operation is commutative and associative, and idempotent on well formed intervals.",
  "all raw intervals, all points, any totally ordered type", BIG, "src/raw_interval.rs:302-321 RawInterval::intersect")
p("RawInterval::complement is set complement",
  "Some interval in a.complement() contains x iff a does not contain x, and the returned intervals are pairwise disjoint and well formed for well formed a.",
  "all raw intervals, all points, any totally ordered type", BIG, "src/raw_interval.rs:282-297 RawInterval::complement")
p("RawInterval::union is set union",
  "Some interval in a.union(b) contains x iff a or b contains x; the result has at most two intervals, and two only if they are disjoint and (over a dense order without end points) cannot be written as one.",
  "all well formed raw intervals, all points, any totally ordered type", BIG, "src/raw_interval.rs:325-339 RawInterval::union", "src/raw_interval.rs:259-261 RawInterval::intersects", "src/raw_interval.rs:264-275 RawInterval::is_adjacent_to", "src/raw_interval.rs:354-370 RawInterval::enclose")
p("RawInterval::minus is set difference",
  "Some interval in a.minus(b) contains x iff a contains x and b does not; the returned intervals are non-Empty, well formed and disjoint.",
  "all raw intervals, all points, any totally ordered type", BIG, "src/raw_interval.rs:343-349 RawInterval::minus")
p("RawInterval::enclose is the smallest enclosing interval",
  "a.enclose(b) contains every point of a and of b, and every interval that contains all points of a and b contains all points of a.enclose(b).",
  "all well formed raw intervals over a dense unbounded order (minimality) or any total order (enclosure)", BIG, "src/raw_interval.rs:354-370 RawInterval::enclose")
p("RawInterval::intersects and is_empty decide overlap and emptiness",
  "intersects is true iff the two intervals share a point, and is_empty is true iff the interval has no points (dense unbounded orders); intersects and is_adjacent_to are symmetric.",
  "all well formed raw intervals over a dense unbounded order", BIG, "src/raw_interval.rs:259-261 RawInterval::intersects", "src/raw_interval.rs:264-275 RawInterval::is_adjacent_to", "src/raw_interval.rs:70-72 RawInterval::is_empty")
p("RawInterval::closure is the smallest closed superset",
  "a.closure() contains a, has no exclusive bound, and is contained in every interval without exclusive bounds that contains a.",
  "all well formed raw intervals over a dense unbounded order", BIG, "src/raw_interval.rs:375-385 RawInterval::closure")
p("RawInterval::intersect_all is n-ary intersection",
  "intersect_all(is).contains(x) iff every interval in the sequence contains x (Full for the empty sequence).",
  "all finite sequences of raw intervals", "the length of the sequence is unbounded", "src/raw_interval.rs:400-404 RawInterval::intersect_all")
p("RawInterval::union_all is n-ary union",
  "Some interval in union_all(is) contains x iff some interval of the sequence does, and the returned intervals are pairwise disjoint.",
  "all finite sequences of well formed raw intervals", "the length and the order of the sequence are unbounded", "src/raw_interval.rs:408-436 RawInterval::union_all")
p("RawInterval::enclose_all is the smallest interval enclosing all arguments",
  "enclose_all(is) contains every point of every interval given, and is the smallest such interval.",
  "all finite sequences of raw intervals", "the length of the sequence is unbounded", "src/raw_interval.rs:392-396 RawInterval::enclose_all")
p("Display/FromStr round trip",
  "Parsing the Display output of a well formed raw interval gives back the same interval, for the builtin integer types and for every value type whose own text form round-trips and avoids the interval syntax.",
  "all well formed raw intervals, every integer value of every width", BIG, "src/raw_interval.rs Display for RawInterval, FromStr for RawInterval")
p("Parsing is total and never yields an inverted interval",
  "from_str never panics; on success the interval is well formed; on a string with no comma that is neither a value nor starts with the empty sign it returns InvalidInterval; a value error is passed on unchanged.",
  "all strings", "the input is an arbitrary string", "src/raw_interval.rs FromStr for RawInterval, IntervalParseError")
# ---- Normalize
p("normalize preserves the point set",
  "i.normalized().contains(x) iff i.contains(x).",
  "all raw intervals (also inverted ones), all points, every lawful Finite type", BIG, "src/normalize.rs Normalize::normalize")
p("normalize is idempotent and always yields a closed form",
  "i.normalized() is Empty, a Point or a Closed interval with both ends inclusive, and normalizing again changes nothing.",
  "all raw intervals, every lawful Finite type", BIG, "src/normalize.rs Normalize::normalize")
p("Normalization is canonical",
  "Two well formed raw intervals with the same points normalize to the same value (readme: equivalent intervals have the same representation).",
  "all pairs of well formed raw intervals, every lawful Finite type", BIG, "src/normalize.rs Normalize::normalize", "readme.md")
p("denormalize preserves the point set",
  "i.denormalized().contains(x) iff i.contains(x).",
  "all raw intervals, all points, every lawful Finite type", BIG, "src/normalize.rs Normalize::denormalize")
p("normalize after denormalize",
  "Denormalizing a normalized interval and normalizing it again gives the same value up to the Point/Closed spelling of a single point, and denormalization produces no inclusive bound.",
  "all normalized intervals, every lawful Finite type", BIG, "src/normalize.rs Normalize::{normalize,denormalize}")
p("Integer pred/succ never overflow and are exact neighbours",
  "For every builtin integer type, pred is None exactly at MIN and otherwise the greatest smaller value, succ is None exactly at MAX and otherwise the least greater value, and the checked arithmetic never overflows.",
  "every value of every one of the 12 builtin integer types", "2^128 values", "src/normalize.rs std_integer_countable_impl")
# ---- Interval
p("Interval constructors contain exactly the points they name",
  "Each of new, empty, point, open, left_open, right_open, closed, left_closed, right_closed, unbounded_{from,to,up_from,up_to}, full yields an interval whose contains is the named set of points (with the documented one-point result for equal half-open ends).",
  "all arguments, all points, every lawful Finite type", BIG, "src/interval.rs Interval constructors")
p("Range conversions preserve the range",
  "Interval::from(r).contains(x) iff r.contains(x), for Range, RangeFrom, RangeTo, RangeToInclusive and RangeFull.",
  "all ranges, all points, every lawful Finite type", BIG, "src/interval.rs From<Range> etc.")
p("Every Interval value is in normal form",
  "Every Interval obtainable by constructors, conversions and set operations is Empty, a Point or a Closed interval; hence lower_bound and upper_bound are None or inclusive, is_bounded, is_closed, is_left_bounded and is_right_bounded are true and is_half_open etc. false.",
  "all expressions over the Interval API", HIST, "src/interval.rs Interval")
p("Interval::is_empty decides emptiness",
  "is_empty() is true iff no point is contained.",
  "all Interval values the API can produce", BIG, "src/interval.rs:1008-1010 Interval::is_empty")
p("Interval::is_degenerate and is_proper count points",
  "is_degenerate() iff exactly one point is contained; is_proper() iff more than one.",
  "all Interval values the API can produce", BIG, "src/interval.rs:1031-1033 Interval::is_degenerate", "src/interval.rs:1057-1061 Interval::is_proper")
p("Equality of Intervals is equality of point sets",
  "Two Intervals contain the same points iff they compare equal.",
  "all pairs of Interval values the API can produce", BIG, "src/interval.rs Interval PartialEq")
p("Interval intersect, minus and complement are the set operations",
  "contains of intersect/minus/complement is conjunction/difference/negation of contains.",
  "all Interval values the API can produce, all points", BIG, "src/interval.rs:1593-1595 Interval::intersect", "src/interval.rs:1641-1647 Interval::minus", "src/interval.rs:1568-1573 Interval::complement")
p("Interval union is set union",
  "Some interval in a.union(b) contains x iff a or b contains x.",
  "all Interval values the API can produce, all points", BIG, "src/interval.rs:1615-1621 Interval::union")
p("Interval::intersects decides overlap",
  "a.intersects(b) iff some point is contained in both.",
  "all Interval values the API can produce", BIG, "src/interval.rs:1516-1518 Interval::intersects")
p("Interval enclose and closure are minimal",
  "a.enclose(b) contains a and b and is contained in every Interval that does; closure contains exactly the points of the interval.",
  "all Interval values the API can produce", BIG, "src/interval.rs:1667-1669 Interval::enclose", "src/interval.rs:1688-1690 Interval::closure")
p("Interval infimum and supremum are the least and greatest points",
  "infimum()/supremum() is the least/greatest contained point, None iff there is none.",
  "all Interval values the API can produce", BIG, "src/interval.rs:917-919 Interval::infimum", "src/interval.rs:958-960 Interval::supremum", "src/interval.rs:834-836 Interval::lower_bound", "src/interval.rs:877-879 Interval::upper_bound")
p("Point iteration over an Interval is a double-ended walk of its points",
  "Under any interleaving of next and next_back, each call returns the least/greatest point not yet returned, and None exactly when all points have been returned; it never panics.",
  "all Interval values the API can produce, all interleavings of calls", "all call sequences of any length", "src/interval.rs:1868-1880 Iter::next", "src/interval.rs:1886-1898 Iter::next_back")
p("Interval::size is the distance of the extreme points, without wrap-around",
  "size() is None iff the interval is empty and otherwise supremum minus infimum.",
  "all Interval values, every integer type", BIG, "src/interval.rs:978-983 Interval::size")
# ---- Tine / TineTree
p("Bound markers are totally ordered and comparison never panics",
  "The comparison of the markers stored in a tree is a total preorder that never reaches the unreachable branch, for every marker that occurs in a tree.",
  "all markers produced by raw intervals and tree operations", HIST, "src/tine.rs PartialOrd for Tine, Ord for Tine")
p("Building a tree from one interval",
  "TineTree::from(i).contains(x) iff i.contains(x), and iterating it gives back exactly [i] (or [] for Empty).",
  "all well formed raw intervals, any totally ordered type", BIG, "src/tine_tree.rs TineTree::from_raw_interval, src/tine.rs Tine::from_raw_interval")
p("TineTree::union_in_place adds exactly the interval's points",
  "After union_in_place(i), contains(x) iff it was contained before or i contains x; it never panics, in debug or release build.",
  "all reachable trees, all well formed intervals, all points, any totally ordered type", HIST, "src/tine_tree.rs:414-426 TineTree::union_in_place", "src/tine_tree.rs:431-485 TineTree::union_point_interval", "src/tine_tree.rs:489-609 TineTree::union_proper_interval")
p("TineTree::minus_in_place removes exactly the interval's points",
  "After minus_in_place(i), contains(x) iff it was contained before and i does not contain x; it never panics.",
  "all reachable trees, all well formed intervals, all points", HIST, "src/tine_tree.rs:612-627 TineTree::minus_in_place", "src/tine_tree.rs:631-687 TineTree::minus_point_interval", "src/tine_tree.rs:693-803 TineTree::minus_proper_interval", "src/tine.rs:218-259 Tine::minus")
p("TineTree::intersect_in_place keeps exactly the interval's points",
  "After intersect_in_place(i), contains(x) iff it was contained before and i contains x; it never panics.",
  "all reachable trees, all well formed intervals, all points", HIST, "src/tine_tree.rs:280-319 TineTree::intersect_in_place", "src/tine_tree.rs:323-411 TineTree::intersect_proper_interval")
p("TineTree::complement is set complement and an involution",
  "complement().contains(x) iff not contains(x); complementing twice gives back an equal tree; it never panics.",
  "all reachable trees, all points", HIST, "src/tine_tree.rs:126-177 TineTree::complement")
p("TineTree::union is set union, commutative, associative and idempotent",
  "a.union(b).contains(x) iff a or b contains x; as values, a∪b = b∪a, (a∪b)∪c = a∪(b∪c), a∪a = a.",
  "all reachable trees, all points", HIST, "src/tine_tree.rs:209-215 TineTree::union")
p("TineTree::intersect is set intersection",
  "a.intersect(b).contains(x) iff both contain x.",
  "all reachable trees, all points", HIST, "src/tine_tree.rs:182-204 TineTree::intersect")
p("TineTree::minus is set difference",
  "a.minus(b).contains(x) iff a contains x and b does not.",
  "all reachable trees, all points", HIST, "src/tine_tree.rs:220-226 TineTree::minus")
p("A tree built from intervals does not depend on their order",
  "Collecting any permutation of the same intervals gives an equal tree, which contains exactly the points of the intervals.",
  "all finite lists of well formed intervals and all their permutations", "n! orders of unboundedly many intervals", "src/tine_tree.rs FromIterator/From for TineTree")
p("Trees are canonical over dense orders",
  "Over a dense unbounded order two trees are equal iff they contain the same points, is_empty iff no point is contained, is_full iff every point is contained.",
  "all reachable trees over dense unbounded orders", HIST, "src/tine_tree.rs TineTree PartialEq, is_empty, is_full")
p("Interval iteration yields the sorted maximal pieces",
  "Forward iteration never panics and yields finitely many well formed non-Empty intervals in increasing order, pairwise disjoint and not mergeable, whose union is the tree; rebuilding a tree from them gives an equal tree.",
  "all reachable trees", HIST, "src/tine_tree.rs Iter::next, IntoIter::next")
p("Reverse interval iteration is the reverse of forward iteration",
  "Collecting the intervals from the back gives the reverse of collecting them from the front, without panicking.",
  "all reachable trees", HIST, "src/tine_tree.rs Iter::next_back, IntoIter::next_back")
p("TineTree::enclose and closure enclose exactly",
  "enclose() contains every point of the tree, has the tree's lower_bound and upper_bound, and is contained in every interval containing the tree; closure is enclose().closure().",
  "all reachable trees over dense unbounded orders (minimality)", HIST, "src/tine_tree.rs:232-266 TineTree::enclose", "src/tine_tree.rs:271-273 TineTree::closure", "src/tine_tree.rs:78-80 TineTree::lower_bound", "src/tine_tree.rs:85-87 TineTree::upper_bound")
# ---- Selection
p("Selection::union_in_place, extend, collect add exactly the given points",
  "After union_in_place(i) / extend(is) / collecting intervals or points, contains(x) iff x was contained before or is in one of the arguments; no panic.",
  "all histories of union/complement operations, all arguments, all points, every lawful Finite type", HIST, "src/selection.rs Selection::union_in_place, Extend, FromIterator")
p("Selections over union and complement behave like sets",
  "For every expression built from empty, full, from(interval), collect, union_in_place, extend, union and complement, evaluation never panics (debug or release) and contains agrees with the mathematical set.",
  "all expressions of any size over these operations, all points", HIST, "src/selection.rs Selection")
p("Selection::minus_in_place removes exactly the interval's points",
  "After minus_in_place(i), contains(x) iff it was contained before and i does not contain x.",
  "all reachable selections, all intervals, all points", HIST, "src/selection.rs:847-849 Selection::minus_in_place")
p("Selection::intersect_in_place keeps exactly the interval's points",
  "After intersect_in_place(i), contains(x) iff it was contained before and i contains x.",
  "all reachable selections, all intervals, all points", HIST, "src/selection.rs:761-763 Selection::intersect_in_place")
p("Selection::intersect and intersects are set intersection and overlap",
  "a.intersect(b).contains(x) iff both contain x; a.intersects(b) iff there is such an x.",
  "all reachable selections, all points", HIST, "src/selection.rs:597-599 Selection::intersect", "src/selection.rs:501-504 Selection::intersects")
p("Selection::minus is set difference",
  "a.minus(b).contains(x) iff a contains x and b does not.",
  "all reachable selections, all points", HIST, "src/selection.rs:664-666 Selection::minus")
p("Selection::is_empty and is_full decide emptiness and fullness",
  "is_empty() iff no point is contained; is_full() iff every point of the type is.",
  "all reachable selections", HIST, "src/selection.rs:320-322 Selection::is_empty", "src/selection.rs:345-347 Selection::is_full")
p("Equality of Selections is equality of point sets",
  "Two selections compare equal iff they contain the same points; in particular collecting intervals or points does not depend on order, grouping or duplicates.",
  "all pairs of reachable selections", HIST, "src/selection.rs Selection PartialEq")
p("Selection::interval_iter yields the maximal runs",
  "interval_iter yields, in increasing order, intervals that contain exactly the points of the selection, each non-empty, any two separated by a point not in the selection.",
  "all reachable selections", HIST, "src/selection.rs IntervalIter::next, IntoIntervalIter::next")
p("Selection point iteration yields each contained point once in order",
  "Forward iteration yields exactly the contained points in strictly increasing order; reverse iteration yields them in decreasing order.",
  "all reachable selections over the integer types", HIST, "src/selection.rs Iter::{next,next_back}, IntoIter::{next,next_back}")
p("Selection point iteration is a double-ended walk",
  "Under any interleaving of next and next_back each call returns the least/greatest point not yet returned.",
  "all reachable selections, all interleavings", "all call sequences", "src/selection.rs:1130-1145 Iter::next", "src/selection.rs:1151-1166 Iter::next_back")
p("Selection bounds and infimum/supremum are extremal points",
  "lower_bound/upper_bound is the inclusive bound at the least/greatest contained point; infimum/supremum is that point; None iff the selection is empty.",
  "all reachable selections", HIST, "src/selection.rs:158-160 Selection::lower_bound", "src/selection.rs:204-206 Selection::upper_bound", "src/selection.rs:247-249 Selection::infimum", "src/selection.rs:291-293 Selection::supremum")
p("Selection boundedness predicates",
  "Every selection over a Finite type is left- and right-bounded and not half-bounded; is_bounded() is true.",
  "all reachable selections", HIST, "src/selection.rs:370-372 Selection::is_bounded", "src/selection.rs:395-397 Selection::is_left_bounded", "src/selection.rs:421-423 Selection::is_right_bounded", "src/selection.rs:446-450 Selection::is_half_bounded")
p("Selection::enclose is the smallest interval containing the selection",
  "enclose() contains every point of the selection, and its least and greatest point are in the selection; closure has the same points.",
  "all reachable selections", HIST, "src/selection.rs:689-691 Selection::enclose", "src/selection.rs:714-716 Selection::closure")
p("Complement of a selection",
  "complement().contains(x) iff not contains(x), complement().complement() equals the original, never panics.",
  "all reachable selections, all points", HIST, "src/selection.rs:554-556 Selection::complement")
# ---- helpers, strictness of parsing, iterator contracts
p("Bound helpers keep the value and the kind of bound",
  "map, transfer, as_ref, unwrap, unwrap_or(_else), map_or(_else), is_finite/inclusive/exclusive, From and Default agree with the kind of the bound; mapping a strictly increasing function over a bound admits exactly the images; unwrap panics exactly on Infinite.",
  "all bounds, all values, all functions", "functions and values are unbounded", "src/bound.rs:43-401", "src/bound.rs:521-534")
p("RawInterval::infimum and supremum are the greatest lower and least upper bound",
  "Over a dense order without end points infimum() is Some(m) exactly if m is the greatest lower bound of the non-empty interval, supremum() dually; over every order Some(m) is a lower/upper bound of all contained points; both are None for Empty.",
  "all well formed intervals, all linear orders", "all types and values", "src/raw_interval.rs:234-255")
p("Interval::into_non_empty, is_adjacent_to and Default",
  "into_non_empty() returns the interval itself, and None exactly if no point is contained; two intervals are adjacent exactly if they share an end point that is greatest in one and least in the other; adjacency is symmetric; the default interval contains nothing.",
  "all intervals obtainable through the public API, every lawful Finite type", "all intervals of all types", "src/interval.rs:52, 782 and is_adjacent_to")
p("Parsing accepts only the documented syntax",
  "A string that RawInterval::from_str accepts is of the form Display prints, up to the spelling of values; conversely every such string is accepted with the interval it denotes.",
  "all strings, all value types whose parser is given (converse: all integer types)", "infinitely many strings", "src/raw_interval.rs FromStr")
p("Iterators that claim FusedIterator are fused",
  "After the first None every further next or next_back call returns None.",
  "all obtainable intervals / reachable trees / reachable selections, all call sequences", "call sequences of any length", "src/interval.rs:1863-1905 Iter", "src/selection.rs:968-1171", "src/tine_tree.rs:1019-1179")
p("Interval iterators are double ended queues",
  "For any interleaving of next and next_back, calls return the first resp. last interval not yet returned and None once all were returned; no call panics.",
  "all reachable trees and selections, all call sequences", "call sequences of any length", "src/tine_tree.rs:1019-1179", "src/selection.rs:968-1040")
p("Programs over selections do not panic",
  "Any program built from the Selection constructors, set operations and queries runs to completion without panicking.",
  "all programs (terms over the public Selection API) of any size, all queries, both build kinds", HIST, "src/selection.rs, src/tine_tree.rs")
p("Debug and release builds agree",
  "Whatever a program computes with debug assertions enabled it also computes with them disabled; disabling them never changes a result (it only lets a program go on where it would have panicked).",
  "all programs over the public Selection and TineTree API, all queries", "tests run in one build kind", "src/tine_tree.rs debug_assert! uses")
p("Interval lists of trees are canonical",
  "Iterating over a tree yields a canonical list (non-empty intervals in order with something missing between neighbours), collecting a canonical list and iterating gives the same list back, exactly one canonical list collects to a given tree, and over dense orders a canonical list is determined by its points.",
  "all reachable trees, all canonical lists, all linear orders", HIST, "src/tine_tree.rs FromIterator, TineTree::interval_iter_bounded")
p("TineTree and RawInterval set operations agree",
  "For two intervals the intervals of the tree computed by union_in_place, complement, intersect and minus_in_place are those RawInterval::{union,complement,intersect,minus} return.",
  "all pairs of well formed intervals, all linear orders", BIG, "src/tine_tree.rs:126-226 complement, intersect, union, minus", "src/tine_tree.rs:414-428 union_in_place", "src/tine_tree.rs:612-803 minus_in_place", "src/raw_interval.rs:282-349 complement, intersect, union, minus")
# ---- contracts: the uses of the API that are right although the plain property fails
p("Reverse iteration is right exactly if no single value is missing",
  "Iterating a tree from the back yields the intervals of forward iteration in reverse order exactly if no single point is left out between two of its intervals; for a selection built by uniting intervals and points, interval iteration and point iteration from the back are right exactly if it does not contain two values with exactly one value, not contained, between them; for any other selection interval iteration from the back is right exactly if its complement lists no interval of the form Point.",
  "all reachable trees; all union-built selections (points: over types without infinite descending sequences); all reachable selections for the last clause; both build kinds", HIST,
  "src/tine_tree.rs:1148-1178 Iter::next_back", "src/selection.rs:1034-1039, 1151-1166")
p("Selections built by uniting intervals and points behave as sets",
  "Two such selections are equal exactly if they contain the same points; is_empty and is_full decide emptiness and fullness; interval_iter yields exactly the maximal runs in ascending order; lower_bound, upper_bound and enclose are given by the least and greatest point; iter yields each point once in ascending order.",
  "all union-built selections (any sequence of new, full, from, extend, collect, union, union_in_place)", HIST,
  "src/selection.rs Selection::{eq,is_empty,is_full,interval_iter,iter,lower_bound,upper_bound,enclose}")
p("Any sequence of intervals can be removed from a selection without single gaps",
  "From a union-built selection in which no single value is missing between two of its values, any sequence of minus_in_place calls leaves exactly the points in none of the removed intervals, without a panic, and the result can be iterated in both directions. From a selection of any history, the same calls also leave the values that its complement lists as points, that are in none of the intervals and that lie directly beside one of them; nothing else is wrong, so the result is right exactly if there are none.",
  "all such selections, and all of any history as said, all lists of obtainable intervals of any length", HIST, "src/selection.rs:847-849 Selection::minus_in_place", "src/tine_tree.rs:612-627 TineTree::minus_in_place")
p("union_all of sorted arguments is canonical",
  "If the intervals given to RawInterval::union_all come in the order of their lower bounds, the result is sorted, has gaps between its members, and contains exactly the points of the arguments.",
  "all lists of well formed intervals sorted by lower bound, all linear orders", "lists of any length over any type", "src/raw_interval.rs:408-436 union_all")
p("The open interval between neighbours is the only interval that misbehaves",
  "is_empty, into_non_empty, infimum, supremum and point iteration are those of the point set for every interval other than open(l, succ l); for that one all of them are wrong.",
  "all intervals obtainable through the public API, every lawful Finite type", "all intervals of all types", "src/interval.rs", "src/normalize.rs:81-99")
p("TineTree::minus_in_place is right exactly on safe removals",
  "minus_in_place(i) removes exactly the points of i and leaves a usable tree if and only if: a removed single point is not an excluded bound of the tree, and no bound of a removed proper interval is a single missing point of the tree.",
  "all reachable trees, all well formed intervals, all linear orders", HIST, "src/tine_tree.rs:612-627 TineTree::minus_in_place")
p("TineTree::intersect is right exactly if the trees meet in lock step",
  "Over a dense order without ends, intersect computes the intersection if and only if whenever the p-th interval of the left tree meets the k-th of the right tree, exactly p of the k intervals before the latter meet nothing.",
  "all pairs of reachable trees over a dense order without ends", HIST, "src/tine_tree.rs:182-204 TineTree::intersect")
p("TineTree::intersect_in_place is right exactly on clean cuts",
  "Over a dense order without ends, intersect_in_place(i) computes the intersection and leaves a usable tree if and only if the tree is empty, i is empty, a point or everything, or the two ends of i are placed in one of five listed ways relative to the intervals of the tree.",
  "all reachable trees, all well formed intervals, dense orders without ends, both build kinds", HIST, "src/tine_tree.rs:280-319 TineTree::intersect_in_place")
p("Intersection and difference by complement and union are exact",
  "complement(union(complement a, complement b)) contains exactly the common points of a and b, complement(union(complement a, b)) exactly the points of a not in b; neither panics. They give a selection equal by == to that of intersect exactly if every two intervals of the two that intersect are met in the walk of intersect; to that of minus (for the programs of C154) exactly if each single value of b that is not joined to its neighbours is a value of a or has no joint of a beside it, and no hole of a is at an edge of b; and to that of minus_in_place exactly if no hole of a is beside the interval.",
  "all pairs of reachable trees over any linear order, all pairs of reachable selections", HIST, "src/tine_tree.rs:209-215 TineTree::union", "src/tine_tree.rs:126-177 TineTree::complement", "src/selection.rs:640-642 Selection::union", "src/selection.rs:554-556 Selection::complement")
p("Programs over the safe operations do not panic",
  "A program that uses neither intersect_in_place nor minus with anything but a union of intervals and points runs to completion, and so does every query except iteration from the back; the results are the same in debug and release builds.",
  "all such programs of any size, all such queries, both build kinds", HIST, "src/selection.rs, src/tine_tree.rs")

p("Owning and borrowing iterators agree",
  "selection.into_iter(), selection.into_interval_iter() and tree.into_iter() yield, under every mixed series of next and next_back calls, exactly what iter() and interval_iter() yield on the same value, including where they panic; TineTree::from(iterator) builds the same tree as collecting the iterator.",
  "every TineTree or Selection value whatsoever, every series of calls, debug and release builds",
  "The owning iterators are separate copies of the borrowing ones; a slip in one copy shows only for some tree and some series of calls from both ends, and there are infinitely many of either.",
  "src/tine_tree.rs:961-1091", "src/selection.rs:857-907", "src/selection.rs:967-1107")
p("Serialized values are read back unchanged",
  "With the serde feature, deserializing what was serialized gives an equal Bound, RawInterval, Interval, TineTree or Selection, and single values are accepted only in the form in which they are written. A tree is read from its markers in any order; of markers at the same place the first one counts.",
  "every bound, raw interval and interval; every tree and selection of any history, corrupt ones included; every element type that is itself read back as written",
  "A tree is rebuilt by inserting its tines one by one under Tine's own ordering, which treats tines at one point as equal; that none is lost is a fact about all trees the API can build.",
  "src/bound.rs:33", "src/raw_interval.rs:33", "src/tine.rs:34", "src/tine.rs:283-315", "src/tine_tree.rs:48-52", "src/interval.rs:48-50", "src/selection.rs:38-42")
p("Deserialized values are as valid as constructed ones",
  "Whatever data is deserialized, the result is an error or a value that the API can also make: a normalized interval, a tree or selection whose bounds open and close in turn; deserializing does not panic.",
  "every data of serde's data model",
  "The set of data is infinite, and what breaks an invariant is data no serializer of the crate writes, which tests based on round trips never contain.",
  "src/tine.rs:283-315", "src/tine_tree.rs:48-52", "src/interval.rs:48-50", "src/selection.rs:38-42", "src/interval.rs:1868-1880")
p("Selection::intersect_in_place is right exactly on clean cuts",
  "On a selection built by union, intersect_in_place([l,u]) keeps exactly the points in [l,u] and leaves a usable selection if and only if the selection is empty, the interval is everything, or the selection reaches both ends of the interval, or passes over one end and stays clear of the other by two values.",
  "all selections built by union, all closed intervals, every lawful Finite type, both build kinds", HIST, "src/selection.rs:761-763 Selection::intersect_in_place", "src/tine_tree.rs:280-319 TineTree::intersect_in_place")
p("Selection::intersect is right exactly if overlapping intervals come together",
  "intersect of two selections built by union computes the common points if and only if any two of their intervals that share a point come together in one walk, in which the left selection moves on by one at each interval of the right one not near its current interval.",
  "all pairs of selections built by union, every lawful Finite type, both build kinds", HIST, "src/selection.rs:597-599 Selection::intersect", "src/tine_tree.rs:182-204 TineTree::intersect")
p("Selection::minus and minus_in_place are right exactly away from single missing values",
  "Removing an interval from a selection built by union removes exactly its points if and only if no value missing between two values of the selection is a neighbour of the interval; removing a selection, if and only if no such value that is missing in the other selection too has a neighbour there.",
  "all selections built by union, all intervals with a point, every lawful Finite type", HIST, "src/selection.rs:664-666 Selection::minus", "src/selection.rs:847-849 Selection::minus_in_place")
p("TineTree::minus is right exactly on safe removals",
  "Over a dense order without ends, minus computes the difference and leaves a usable tree if and only if every interval of the right tree can be removed safely from the left tree: a single point is not an excluded bound of it, and no bound of a proper interval is a single missing point of it.",
  "all pairs of reachable trees over a dense order without ends", HIST, "src/tine_tree.rs:220-226 TineTree::minus")
p("union_all returns disjoint intervals exactly if each argument touches one result",
  "The intervals returned by union_all are pairwise disjoint if and only if an argument is full, or every argument has points in common with at most one of the intervals made of the arguments before it, namely the first it meets or adjoins.",
  "all lists of well formed intervals, all linear orders", "Lists of any length over any type; a single counterexample needs three arguments in a special order.", "src/raw_interval.rs:408-436 union_all")
p("The parser accepts exactly the stated strings",
  "from_str gives i for the strings properly written for i, for every string that starts with the empty sign (then i is empty), and for strings with anything between an infinite bound and the comma; for no other string.",
  "all strings, all bounded integer types", "The set of strings is infinite, and a lax parser shows only on ill formed input, which tests rarely contain.", "src/raw_interval.rs:459-500 from_str")
p("Bound functions on points that are only partially ordered",
  "Bound asks only for PartialOrd, so its points can be floats. least_union and greatest_intersect of lower bounds, greatest_union and least_intersect of upper bounds admit the points that one bound (both bounds) admit whenever the two points can be compared, also when they are equal but not identical such as 0.0 and -0.0; if they cannot be compared (NaN), the second argument is returned whatever it is. On totally ordered points this is C01.",
  "all bounds, all types with a lawful PartialOrd, all points",
  "The set of types and points is unbounded; tests use integers, on which all points can be compared.",
  "src/bound.rs:415-518 least_union, least_intersect, greatest_union, greatest_intersect")
p("Debug builds detect every corrupt tree by iterating over it and its complement",
  "A tree or selection obtained by any operations in a debug build is one in which bounds open and close in turn, as after operations that leave it usable, if and only if iterating over its intervals and over those of its complement does not panic.",
  "all histories of operations in debug builds, including those that leave a corrupt tree; trees over all linear orders, selections over every lawful Finite type",
  HIST, "src/tine_tree.rs:126-177 complement", "src/tine_tree.rs:1106-1143 Iter::next", "src/tine_tree.rs:280-929 in-place operations", "src/selection.rs Selection")
p("Intervals, complement, union and intersect make every selection",
  "Every selection that operations can make without being left corrupt, equal as a value, also comes from single intervals by complement, union and intersect; the other operations add none.",
  "all histories of operations, every lawful Finite type, both build kinds",
  HIST, "src/selection.rs Selection")
p("Every ascending list of intervals is the list of some selection",
  "For intervals with at least one value there is a selection whose interval_iter yields them (as sets of values) if and only if they are in ascending order and disjoint; there is one built by union if and only if moreover a value is missing between any two of them, and then collecting them gives it.",
  "all lists of intervals with a value, every lawful Finite type, both build kinds",
  "Lists of any length; that adjoining intervals occur unmerged shows only after particular histories.", "src/selection.rs:857-859 Selection::interval_iter", "src/selection.rs:933-946 FromIterator")
p("The number of intervals grows by at most one for each interval added or removed",
  "Adding an interval, or removing one where a usable value is left (always so for selections), gives at most one interval more than before; union, minus (of an operand without single points) and collecting give at most as many as the operands or the list have together; intersect at most as many as its argument has; intersect_in_place, where it works at all (C38), no more than before; complement exactly one more, less one for each end of the line (of the type, for selections) that is covered.",
  "all reachable trees and selections, all intervals, both build kinds, all linear orders and every lawful Finite type",
  HIST, "src/tine_tree.rs:126-226 complement, intersect, union, minus", "src/tine_tree.rs:280-929 in-place operations", "src/selection.rs Selection")
p("An in-place operation interrupted by a panic leaves a usable value",
  "If union_in_place, minus_in_place, intersect_in_place or extend panics and the caller catches the panic, the tree or selection it worked on is still one that operations can make, and contains no value it should have lost. (union_in_place, minus_in_place and extend never panic themselves, so that this is about intersect_in_place, and about an iterator of the caller that panics while extend draws on it: then the selection contains in addition exactly the values of the intervals the iterator has returned before.)",
  "all reachable trees and selections, all intervals, both build kinds, all linear orders and every lawful Finite type",
  "Tests do not look at a value after a panic; the states at which the operation can be interrupted depend on where the bounds lie.",
  "src/tine_tree.rs:280-929 in-place operations", "src/selection.rs:761-763,804-806,847-849,914-919")
p("When intersect_in_place of a tree is right, on every order",
  "intersect_in_place leaves a usable tree with exactly the points of the tree that lie in the interval if and only if: the tree is empty; the interval is empty, a single point or full; the tree lies at the ends of the interval in one of a few stated ways (covering both ends on the inner side; passing over one end and staying clear of the other; or having isolated points at the ends that the interval leaves out); or the interval has no point, such as (1, 2) over the integers, and no interval of the tree reaches it.",
  "all reachable trees, all well formed intervals, all linear orders, both build kinds",
  HIST, "src/tine_tree.rs:280-430 intersect_in_place")
p("What a user's implementation of Finite has to satisfy",
  "Normalizing an interval keeps its points, for every interval, if and only if MINIMUM and MAXIMUM are the extreme values and pred and succ give the immediate neighbours, None exactly at the extremes; denormalizing keeps the points of single values and closed intervals if and only if pred and succ do that. An order has at most one such implementation, and has one if and only if it has a least and a greatest value and every other value has neighbours.",
  "all linear orders, all implementations of Finite on them, lawful or not",
  "The implementation of Finite is the user's; tests only ever use the built-in integers.",
  "src/normalize.rs:26-38 trait Finite", "src/normalize.rs:81-132 normalize, denormalize")
p("When intersect_in_place panics, and what it may return otherwise",
  "intersect_in_place of a tree returns if and only if the tree or the interval is trivial (C98) or the ends of the interval lie to the tree in one of a few stated ways, which are more for release builds. A debug build that returns gives the right result unless no interval of the tree reaches either end of the interval from any side; then the result is the interval itself if the tree has nothing between the ends, and otherwise a corrupt tree. For selections built by union and a closed interval, both builds return exactly when the result is right (C51) or the selection contains neither the end values nor the two values outside each of them.",
  "all reachable trees and selections, all well formed intervals, all linear orders and every lawful Finite type, both build kinds",
  HIST, "src/tine_tree.rs:280-430 intersect_in_place", "src/selection.rs:761-763 intersect_in_place")
p("A program is right exactly as long as every step finds operands it works on",
  "For any program of Selection operations: the program and everything it computes on the way are the sets they mean, without a panic, if and only if every intersect, minus, minus_in_place and intersect_in_place in it finds operands that meet the condition under which that operation is right (C52, C53, C50, C98). If the operands of the last step are right, then the result is right exactly under the condition of that step. The other operations work on everything.",
  "all programs, all legal intervals, every lawful Finite type, both build kinds",
  "Programs of any length; errors of one operation depend on the form in which the operations before it left their results.",
  "src/selection.rs Selection")
p("Collecting what a selection yields makes a canonical copy",
  "Collecting the intervals that interval_iter of a selection yields gives a selection with the same points. If every listed interval contains a value, the copy behaves like one built by union (C74), the copies of two selections are equal exactly if the selections have the same points, collecting the points gives the same copy, and the copy equals the original exactly if the original can be built by union. If a listed interval contains no value, the copy is not canonical; leaving out the intervals that do not contain their own lower bound makes it so for every selection.",
  "all reachable selections, every lawful Finite type, both build kinds",
  HIST, "src/selection.rs:857-859 Selection::interval_iter", "src/selection.rs:933-963 FromIterator")
p("Iterators yield as many points as there are",
  "The number of points an iterator of an interval or selection yields is the number of points contained, whichever ends they are taken from (for selections: forwards, or from both ends if no single value is missing between two others), and the k-th point is the one with k smaller points; a selection has as many points as its listed intervals together. Interval::size is that number minus one, None exactly if there is none, and panics in debug builds exactly if the number minus one is no value of the type.",
  "all intervals with a point or empty by construction, all reachable selections whose listed intervals have points, all call sequences, every lawful Finite type, all integer types for size",
  "Counts depend on intervals of any length; overflow shows only for wide intervals of signed types.",
  "src/interval.rs:1857-1904 Iter", "src/interval.rs:978-983 Interval::size", "src/selection.rs:1115-1171 Iter")
p("Intervals and selections as keys of hash tables",
  "Equal values hash alike under every hasher, and values that are not equal never write the same sequence into a hasher, nor one the beginning of the other, so composite keys do not collide by construction. A lookup in a hash table finds a selection built by uniting intervals and points, an interval of at least two points, or a tree over a dense order exactly if one with the same points is stored. (For single values and for selections made by other operations this is false.)",
  "all values, all hashers, all types whose own hashing is free of prefixes, both build kinds",
  "A hash table hides a missing field or length in what is hashed; which keys meet depends on the hasher and on how keys were made.",
  "src/interval.rs:47 derive Hash", "src/selection.rs:36 derive Hash", "src/tine_tree.rs:47 derive Hash", "src/raw_interval.rs:32 derive Hash", "src/bound.rs:32 derive Hash")
p("A selection of one interval behaves as the interval",
  "A selection made from an interval lists that interval, answers contains, lower_bound, upper_bound, is_empty and enclose as the interval does, and its point iterator gives the same answers to every sequence of next and next_back calls. complement, minus and minus_in_place list the pieces the methods of Interval give (leaving out empty ones), and the union of two is enclosed by what Interval::enclose gives. union and union_in_place list the pieces of Interval::union exactly if the intervals are not neighbours; neighbours make one piece in a selection and two as intervals. intersect lists the intersection of the intervals if they have a value in common, nothing if they are apart; for neighbours it lists an interval without values, and intersects is true.",
  "all pairs of intervals that are empty or contain a value, all call sequences, every lawful Finite type, both build kinds",
  "The two types implement each operation in different ways; agreement is over all pairs of intervals.",
  "src/interval.rs Interval", "src/selection.rs:927-930 From<Interval>", "src/selection.rs Selection")
p("Every loop over intervals or points ends",
  "Whatever the content of a tree, even one no operation can produce, and whatever the mix of next and next_back calls: its interval iterator hands out no more intervals than the tree has entries, after which every call returns None or panics. So the loops of contains, union, minus, intersect (two nested loops over two iterators) and of collecting from either end always end, with exactly the result the model computes with a bounded number of rounds. Iterating over the points of any interval or selection of a type with n values hands out at most n points, respectively n times the number of entries.",
  "all trees, all selections, all call sequences, all bodies of loops, both build kinds; for points every lawful Finite type with finitely many values",
  "An endless loop shows only on the input that causes it; the iterators put tines back, so that progress is not evident.",
  "src/tine_tree.rs:1106-1179 Iter", "src/tine_tree.rs:1018-1089 IntoIter", "src/tine_tree.rs:182-204 intersect", "src/tine_tree.rs:110-116 contains", "src/selection.rs:1115-1171 Iter", "src/interval.rs:1857-1904 Iter")
p("The laws of sets hold as equalities of values",
  "Any equation between expressions in union, complement, the empty and the full set that follows from other such equations in the algebra of sets (absorption, distributivity, De Morgan, transitivity of inclusion, ...) holds for selections and for trees of any history as equality ==, without a panic; and no other equation holds for all of them. Two selections (trees) are equal exactly if each, united with the complement of the other, is_full; so values that are not equal can be told apart by other means than ==. b.union(&a.complement()).is_full() is true only if every point of a is in b, and exactly then if a was made so that every listed interval has a value and b is built by union.",
  "all expressions, all sets of hypotheses, all reachable selections and trees, both build kinds, every linear order (trees), every lawful Finite type (selections)",
  "Infinitely many laws, and selections with the same points need not be equal, so that a law for points says nothing about ==.",
  "src/selection.rs:640-642 union", "src/selection.rs:554-556 complement", "src/tine_tree.rs:209-215 union", "src/tine_tree.rs:126-177 complement", "src/tine_tree.rs:102-106 is_full")
p("Results depend on the values only through their order",
  "Replacing every value in the arguments by its image under any strictly increasing function (u8 as i64, multiplying by ten, ...) and calling a method of Bound, RawInterval or TineTree gives the result of the method with every value replaced: the same shapes, the same booleans, the same panics, for single calls of the iterators in any state as well as for whole operations, and even for trees no operation can produce. For Interval and Selection the same holds for every renaming that is increasing both ways between lawful Finite types (u8 and i8, say), since the order settles pred, succ, MINIMUM and MAXIMUM; it fails for widening, where a complement reaches further.",
  "all strictly increasing functions between linear orders, all bounds, intervals, trees and iterator states, both build kinds; for Interval and Selection all order isomorphisms between lawful Finite types",
  "Quantifies over two types and all functions between them; tests fix one type.",
  "src/bound.rs Bound", "src/raw_interval.rs RawInterval", "src/tine_tree.rs TineTree", "src/interval.rs Interval", "src/selection.rs Selection")
p("What holds on the left holds on the right",
  "Turning the order of the values around (x to -x, or !x for an integer type) and exchanging the ends of every interval in the arguments gives the result with its ends exchanged, and lists in the other order: for every method of RawInterval and Interval; for TineTree and Selection for contains, enclose, closure, the bounds (lower and upper change places), complement, union, the three methods that change a tree or selection in place (wrong results and panics included), construction, extend and iteration over intervals. next on an interval gives the mirror image of next_back. minus of trees does so if no single point of the right tree is at an open end of the left one, minus of selections under the same condition on their trees, so always if the right one is built by unions; intersect exactly if walking from the left and from the right pairs the same intervals; backward iteration exactly if no single point is missing between two intervals. (In general it is false for these three.)",
  "all strictly decreasing functions between linear orders, all reachable trees, all raw intervals, both build kinds; for Interval and Selection all order reversals between lawful Finite types",
  "Left and right are handled by separate code in every function; a test of one side says nothing about the other.",
  "src/raw_interval.rs RawInterval", "src/tine_tree.rs:306-738 union_in_place, minus_in_place, intersect_in_place", "src/tine_tree.rs:1106-1179 Iter", "src/interval.rs Interval", "src/selection.rs Selection")
p("Intervals form a lattice under intersect and enclose",
  "Any equation between expressions in intersect and enclose that follows from other such equations in every lattice (associativity, absorption a.intersect(&a.enclose(&b)) == a, monotonicity, ...) holds for RawIntervals as equality ==; full and empty are the neutral elements; a.intersect(&b) == a exactly if a.enclose(&b) == b, which implies that b has the points of a and over dense orders without ends means just that. The lattice is not distributive. intersect_all depends on the set of its arguments only. For Interval the same holds for values with a.intersect(&a) == a, which every result of the two methods satisfies, and among which two with the same points are equal; it is the exact condition. (For all values it is false: the interval [3, 4) of integers is not its own intersection.)",
  "all expressions, all sets of hypotheses, all well formed raw intervals over every linear order; all obtainable intervals of every lawful Finite type",
  "Infinitely many laws over all values; intervals with the same points need not be equal, so that a law for points says nothing about ==.",
  "src/raw_interval.rs:302-321 intersect", "src/raw_interval.rs:354-370 enclose", "src/raw_interval.rs:400-404 intersect_all", "src/interval.rs:1593-1595 intersect", "src/interval.rs:1667-1669 enclose")
p("Doing it twice is doing it once",
  "Adding an interval, a list of intervals or a whole tree or selection a second time changes nothing, as equality ==. For selections the same holds for removing an interval, and for removing a selection built by unions. Removing any selection again (for the programs of C154) changes nothing exactly if the first had no joint beside a single value of the second that is not joined to its neighbours, and no hole of the first is a value at an edge of the second. For trees, removing an interval with two ends a second time changes nothing exactly if no single missing point of the tree is an included end of the interval, and removing a tree without single points likewise; in any case the second removal gives the difference and a third changes nothing. Removing a single point again after it was removed rightly changes nothing exactly if it was not there or was there on its own. Cutting down to an interval again after a right cut changes nothing exactly if the result reaches both ends of the interval (or nothing is left); intersecting with the same tree or selection again exactly if all meeting intervals come together in the walk. (In general the claim is false for removing, cutting and intersecting: the second call can give something else, a corrupt tree or a panic.)",
  "all reachable trees and selections, all well formed intervals, all linear orders, both build kinds",
  "Quantifies over all states and arguments; the first call settles whether the second one fails, so that tests of single calls see nothing.",
  "src/tine_tree.rs:414-428 union_in_place", "src/tine_tree.rs:612-803 minus_in_place", "src/tine_tree.rs:280-319 intersect_in_place", "src/tine_tree.rs:182-230 intersect, union, minus", "src/selection.rs:597-666 intersect, union, minus", "src/selection.rs:761-860 intersect_in_place, union_in_place, minus_in_place")
p("A value with itself",
  "For a RawInterval a: a.intersect(&a) == a, a.enclose(&a) == a, a.minus(&a) yields nothing, a.union(&a) yields a (nothing if empty). For an Interval a.minus(&a) yields nothing, and a.union(&a) one interval with the same points exactly if a has a point or reports itself empty. A tree or selection united with itself is itself. Intersected with itself it keeps its first interval only, so that a.intersect(&a) == a exactly if there is at most one interval. a.minus(&a) never panics and contains exactly the single missing points of a tree (the single missing values of a selection built by unions; the values its complement lists as points, for a selection of any history), so that it is empty exactly if there are none. (That a.intersect(&a) == a and a.minus(&a) is empty for every tree or selection is false.)",
  "all well formed raw intervals, all obtainable intervals, all reachable trees and selections, both build kinds",
  "Quantifies over all values; whether the result is right depends on how many intervals there are and on single missing points.",
  "src/raw_interval.rs:302-370 intersect, union, minus, enclose", "src/interval.rs:1593-1647 intersect, union, minus", "src/tine_tree.rs:182-230 intersect, union, minus", "src/selection.rs:597-666 intersect, union, minus")
p("Set operations work interval by interval",
  "union_in_place leaves every listed interval that neither meets nor touches the argument as it was, in its place, and replaces the others, which are consecutive, by the one interval that encloses them and the argument (RawInterval::enclose folded over them). complement lists what RawInterval::minus leaves of the full interval taking one listed interval after the other away. minus_in_place lists p.minus(&i) of each listed interval p in turn, exactly if i is safe to remove (C78); minus does so for one interval of the right tree after the other, exactly if each is safe to remove from the left tree; intersect_in_place lists the nonempty p.intersect(&i), exactly if i cuts cleanly (C80) or is empty, full or a point or the tree is empty; intersect lists the nonempty p.intersect(&q) of all pairs, exactly if the pairs that meet come together in the walk (C79). For a selection built by unions: union_in_place and minus_in_place do the same with Interval::enclose and Interval::minus, where touching means holding equal or neighbouring values and the condition for minus is that no single missing value lies next to the end of the argument.",
  "all reachable trees over every linear order, all well formed intervals, both build kinds; all selections built by unions and all real intervals of lawful Finite types",
  "Says which intervals come out and in which order for any number of intervals; equality of points does not settle how they are cut up, and tests have lists of two or three.",
  "src/tine_tree.rs:126-230 complement, intersect, union, minus", "src/tine_tree.rs:280-319 intersect_in_place", "src/tine_tree.rs:414-428 union_in_place", "src/tine_tree.rs:612-803 minus_in_place", "src/raw_interval.rs:302-370 intersect, minus, enclose", "src/selection.rs:761-860 union_in_place, minus_in_place")
p("The complement lists the gaps",
  "If a tree lists intervals i1, ..., in, its complement lists what lies before i1, between i1 and i2, ..., and after in, in this order and nothing else: each gap starts where one interval ends and stops where the next starts, with an included end excluded and an excluded end included, and there is no gap before or after an interval that goes on forever. Of a selection built by unions the complement lists the runs of missing values likewise: from minimum or the successor of a supremum to the predecessor of the next infimum or maximum, where these exist.",
  "all reachable trees over every linear order, all selections built by unions over every lawful Finite type, both build kinds",
  "Says which intervals come out for any number of intervals; equality of points does not settle how they are cut up or written.",
  "src/tine_tree.rs:126-177 complement", "src/selection.rs:554-556 complement", "src/interval.rs:917-960 infimum, supremum")
p("Intervals taken out of any value, corrupt ones included, are proper",
  "Whatever earlier calls left in a tree, every interval that next, next_back, enclose or closure returns is well formed (its ends are in order and different), and every Interval a selection returns is one that the constructors make, so that it can be used like any other. A tree of any history, in debug or release builds, the tree found after a caught panic included, is strictly ascending, and comparing its markers with each other or with those of an interval never panics.",
  "all trees whatsoever and all call sequences (intervals); all trees that any sequence of operations returns or leaves behind by a panic (order); both build kinds",
  "Corrupt trees arise from unusual histories; tests do not go on to use them.",
  "src/tine_tree.rs:1019-1179 next, next_back", "src/tine_tree.rs:232-273 enclose, closure", "src/selection.rs:689-716 enclose, closure", "src/selection.rs:968-1040 IntoIntervalIter, IntervalIter", "src/tine.rs Ord for Tine")
p("What was added can be taken back, what was removed can be put back",
  "Adding an interval (or uniting with a tree) and removing it again gives back the old tree, as equality ==, exactly if no intervals overlap and no single point is missing between the old and the added intervals or between added ones. Removing something that lies in the tree and adding it again gives back the old tree exactly if no single missing point of the tree is an end of what was removed. For selections built by unions: adding and removing an interval gives back the old selection exactly if at least two values lie between each of its points and each point of the selection; for a whole selection, if moreover no single value is missing in it; the points alone are the old ones exactly if there is no common point and no single missing value of the union lies next to the removed selection. Removing and adding gives back the old selection exactly if it holds all the points and no single missing value of it is next to them. For selections of any history (the programs of C154): adding and removing gives back the old one exactly if no value and no joint is one of both and no hole there is after the addition is beside the interval, or at an edge of the selection, and uniting and removing never panics; removing and adding exactly if all values and joints of what is removed are in the old one and none of its holes is beside it. (That adding and removing something disjoint gives back the old value, and removing and adding a part does, is false.)",
  "all reachable trees over every linear order and all well formed intervals; all selections built by unions, all real intervals, every lawful Finite type; both build kinds",
  "Two calls that undo each other, on all states; the exceptions depend on what lies next to the argument, and equality == can differ though the points are the same.",
  "src/tine_tree.rs:182-230 union, minus", "src/tine_tree.rs:414-428 union_in_place", "src/tine_tree.rs:612-803 minus_in_place", "src/selection.rs:597-666 union, minus", "src/selection.rs:761-860 union_in_place, minus_in_place")
p("After any sequence of additions and removals few values are wrong",
  "After any sequence of union_in_place and minus_in_place calls a selection contains everything it should, and every value it contains beyond that is the value just before or just after one of the removed intervals. So at most two values per minus_in_place call are answered wrongly, however long the sequence, and this can be attained. A tree likewise contains everything it should and beyond that only ends of removed intervals, provided no single points are removed. (Removing a single point where an interval of a tree starts can change what contains says of points far away.)",
  "all sequences of calls with obtainable intervals on any reachable selection of any lawful Finite type; all sequences of calls with well formed intervals, none of the removed ones a point, on any reachable tree over any linear order; both build kinds",
  "Quantifies over call sequences of any length; errors of single steps could add up or spread.",
  "src/selection.rs:804-849 union_in_place, minus_in_place", "src/tine_tree.rs:414-428 union_in_place", "src/tine_tree.rs:612-803 minus_in_place", "src/selection.rs:472-474 contains")
p("Bigger operands give bigger results",
  "If a's points are among those of a' and b's among those of b', then a.union(&b) has its points among those of a'.union(&b'), a'.complement() among those of a.complement(), and likewise for union_in_place with a bigger interval; trees and selections of any history. a.enclose() has its points among those of a'.enclose() if every interval of a has a value. For selections built by unions the same holds of closure(), minus(&b) and minus_in_place(i), also where the results are not the right ones; for any history it holds of minus_in_place(i) exactly if every single missing value of a beside i (an interval of its complement) is in a' or missing there singly too (likewise of minus by a selection built by unions). Removing a bigger interval leaves less exactly if every single missing value beside the bigger one is also beside the smaller one, for any history; likewise for selections built by unions. After any programs of C154, where the differences are as the machine says, a.minus(&b) has its values among those of a'.minus(&b) exactly if each hole of a at an edge of b is a hole of a' or a value of it that stays, and a.minus(&b') among those of a.minus(&b) exactly if each hole of a at an edge of b' is at an edge of b. If a'.intersect(&b') is right, a.intersect(&b) has its points among those of it. (That intersect grows with its operands, that minus shrinks with its right operand, and that minus_in_place, enclose and closure of selections of any history grow with the selection, is false.)",
  "all reachable trees and selections (union, complement, intersect), all selections built by unions (minus, enclose, closure), all obtainable intervals, both build kinds",
  "Compares two calls on all pairs of comparable states; the exceptions depend on missing values next to the operand.",
  "src/selection.rs:554-666 complement, intersect, union, minus", "src/selection.rs:689-716 enclose, closure", "src/selection.rs:804-849 union_in_place, minus_in_place", "src/tine_tree.rs:126-230 complement, union")
p("The order of removals does not matter, that of additions and removals mostly not",
  "However many intervals are removed from a selection by minus_in_place, whatever its history, every order gives the same selection, as equality ==, and none panics; likewise a.minus(&b).minus(&c) == a.minus(&c).minus(&b) if b and c are built by unions. For selections of any history (the programs of C154) the two differences are the same exactly if b and c agree at each hole of a where both have an edge, and if each value of a, joined on both sides, that is joined to neither side in b (or c) is so in c (or b), too, or no edge of it; and adding i and removing j can be exchanged exactly if they have no value and no joint in common and every hole beside j there is after the addition was there before. Open intervals can be removed from a tree in any order; two intervals neither of which is a point can be removed in either order exactly if no single missing point of the tree is an end of both that belongs to only one of them. Adding an interval i and removing an interval j can be exchanged in a tree (j not a point) exactly if they do not overlap and every end of j that is a single missing point after the addition is one before; in a selection built by unions the values are the same exactly if i and j have no common value and every single value missing after the addition next to j is missing alone before, and the selections are == exactly if moreover no value of i is the neighbour of one of j. (That removals from a tree can always be exchanged is false.)",
  "all lists of obtainable intervals and their permutations, all reachable selections and trees, both build kinds; every linear order (trees), every lawful Finite type (selections)",
  "Quantifies over call sequences of any length and their permutations; removals put in single missing values, so that each step depends on the earlier ones.",
  "src/selection.rs:640-666 union, minus", "src/selection.rs:804-849 union_in_place, minus_in_place", "src/tine_tree.rs:182-230 minus", "src/tine_tree.rs:612-803 minus_in_place")
p("What a selection edited in place lists and reports depends on its values alone",
  "Take a selection built by unions and change it by union_in_place, minus_in_place, complement, union or minus with a selection built by unions, any number of times in any order. interval_iter then yields exactly the maximal runs of the values it contains, in ascending order; is_empty, is_full, lower_bound, upper_bound, enclose and iteration over the values from the front agree with the values contained; and two such selections with the same values list the same intervals, even if they compare unequal. For a selection of any other history: it and its complement list their maximal runs exactly if neither lists an interval without values. (That also minus_in_place and iteration from the back depend on the values alone is false, and the union of two such selections can list more intervals than runs.)",
  "all sequences of these operations, all obtainable intervals that are empty or have a value, both build kinds; every lawful Finite type",
  "Quantifies over histories of any length; the same set of values is kept as different trees, which tests compare for one history at a time.",
  "src/selection.rs:804-849 union_in_place, minus_in_place", "src/selection.rs:554-666 complement, union, minus", "src/selection.rs:857-878 interval_iter, iter", "src/selection.rs:158-347 lower_bound, upper_bound, is_empty, is_full", "src/selection.rs:689-691 enclose")
p("A selection of the free numbers hands out no number twice",
  "Keep the free numbers of a pool as a selection: take is iter().next() and the removal of that number, give(x) is union_in_place(Interval::point(x)). If the number is removed by complement, union_in_place, complement, then from any selection edited in place and for any sequence of calls nothing panics, take hands out the least free number, or none exactly if none is free, and no number is handed out again unless it was given back in between. With removal by minus_in_place(Interval::point(x)) the same holds from a selection without pinholes (built by removals) as long as nothing is given back; a single take is right exactly if the complement does not list the next number as an interval point; and it is false in general: take 0, 1, 2, give back 0 and 2, take 0, and the next take hands out 1, which is in use. Of a pool of the numbers of one interval it also holds with minus_in_place as long as only the number handed out last, of those in use, is given back; of a pool with a gap that is false. Exactly, for a pool of the numbers of one interval whose users give back only what they have: the first take that goes wrong is the first that hands out a number x where x+1 is in use and was handed out before both x and x+2 were last given back, these being free.",
  "all sequences of take and give of any length, all selections edited in place, both build kinds; every lawful Finite type",
  "Quantifies over call sequences of any length; the failing sequence needs numbers given back on both sides of one still in use.",
  "src/selection.rs:804-849 union_in_place, minus_in_place", "src/selection.rs:554-556 complement", "src/selection.rs:873-878 iter", "src/selection.rs:1125-1146 Iter next")
p("Values that compare equal are exactly those that no use can tell apart",
  "Two trees, of any history, compare equal exactly if after every sequence of union_in_place, minus_in_place and complement contains answers the same for both; and so do two selections over a type with at least three values. It is enough to ask for the points themselves and, in the value or in its complement, for the points next to an interval that is added and removed again: all above or all below the point for a tree, the next or the previous value for a selection. So for any two values that compare unequal, even with the same points, there is such a short program with different answers. As long as nothing is removed, and over types with fewer values, selections with the same values cannot be told apart by contains, whether they compare equal or not.",
  "all reachable trees over every nonempty linear order, all reachable selections over every lawful Finite type with at least three values, all sequences of changes, both build kinds",
  "Quantifies over all pairs of values and all programs; a test compares two values by a few programs.",
  "src/tine_tree.rs:414-428 union_in_place", "src/tine_tree.rs:612-803 minus_in_place", "src/tine_tree.rs:126-177 complement", "src/selection.rs:34-40 PartialEq for Selection", "src/selection.rs:804-849 union_in_place, minus_in_place")
p("Replicas that exchange selections agree once they know the same updates",
  "Let any number of replicas each keep two selections, of what was put in and of what was taken out, add to them by union_in_place, send both to each other at any time, and merge what they receive by union; messages are delivered in any order, late, several times, or never. Then nothing panics, each replica holds exactly the values of the updates that have reached it, directly or through others, and shows (by complement, union, complement) those put in and not taken out; and two replicas that know the same values to be put in and taken out hold and show values that compare equal.",
  "all numbers of replicas, all sequences of updates, sends and deliveries of any length, all obtainable intervals that are empty or have a value, both build kinds; every lawful Finite type",
  "Quantifies over all interleavings of updates and deliveries.",
  "src/selection.rs:804-806 union_in_place", "src/selection.rs:640-642 union", "src/selection.rs:554-556 complement", "src/selection.rs:34-40 PartialEq for Selection")
p("What is said of a value after any edits depends on the value and its neighbours alone",
  "Take a selection built by unions and change it any number of times by union_in_place, minus_in_place, complement, union or minus with selections built by unions. What contains(x) then answers follows from which of x, the value before x and the value after x were in the selection and in each operand, and in what way is given exactly: the stretch on each side of x is in if x or that neighbour is, additions, removals and complement act on x and on both stretches separately, and a value missing between two stretches that are in comes in when a neighbour is removed and it is not. So operands that agree on the three values are interchangeable, changes that touch none of the three can be left out, and after removals alone the values are those that were in and not removed, and those missing alone at first that were not removed but had a neighbour removed. For TineTree itself, with any well-formed raw intervals over any order, the same account is given for a point in terms of the listed intervals and the operands having the point, reaching up to it from below and going on above it, where no single points are removed.",
  "all sequences of these operations of any length, all obtainable intervals that are empty or have a value, all union-built selections, all values x, both build kinds; every lawful Finite type",
  "Quantifies over call sequences of any length and over all edits elsewhere.",
  "src/selection.rs:804-806 union_in_place", "src/selection.rs:847-849 minus_in_place", "src/selection.rs:554-556 complement", "src/selection.rs:640-642 union", "src/selection.rs:664-666 minus", "src/selection.rs:472-474 contains", "src/tine_tree.rs:414 union_in_place", "src/tine_tree.rs:612 minus_in_place", "src/tine_tree.rs:126 complement")
p("A calendar of bookings refuses exactly the requests that overlap",
  "Keep what is booked in a selection, refuse a requested interval if it is taken, and book others with union_in_place. Asked with booked.intersects(&Selection::from(i)), a request is refused exactly if it overlaps what is booked, so that no time is booked twice. This is false: the request is compared with the first run of what is booked only, and is refused also if it merely adjoins that run, so that an interval beyond it can be booked any number of times. Asked with booked.interval_iter().any(|b| b.intersects(&i)) it is true, whatever the history of booked and also for intervals without values, and asked with Selection::from(i).minus(&booked) != Selection::from(i) exactly the requests are refused that overlap or adjoin what is booked. Where booked was also changed by removals and complements (by any program of C154), a request asked for in this last way is let through exactly if none of its values is booked, no two neighbours of which it has one are joined in booked, and no booked value that is not joined to its neighbours is beside it; so what is let through is never booked already. If bookings are cancelled with minus_in_place(i), the calendar asked in the first way answers as it should up to the first cancellation of an interval that adjoins a free value y, where of the bookings and cancellations that reached y-1 or y the latest was a booking, and so of those that reached y or y+1; after it a request for y is refused though y is free. So it is after 1 to 4 and 6 to 9 are booked and 6 to 9 is cancelled, with 5. It never happens if all intervals are made of the same slots of two values or more.",
  "all sequences of requests of any length, all obtainable intervals that are empty or have a value, all union-built selections to begin with, both build kinds; every lawful Finite type",
  "Quantifies over request sequences of any length; the wrong answers need two runs and a request beyond the first.",
  "src/selection.rs:501-504 intersects", "src/selection.rs:857-859 interval_iter", "src/selection.rs:664-666 minus", "src/selection.rs:804-806 union_in_place", "src/interval.rs:1516-1518 intersects", "src/selection.rs:847-849 minus_in_place")
p("A run of additions, or of removals, depends on the values only",
  "From any selection, whatever its history, two sequences of additions (union_in_place, union) that together put in the same values lead to selections that compare equal, and so do two sequences of removals (minus_in_place, minus) that together take out the same values: order, repetition, overlap and how the values are cut into intervals do not matter. So a.minus(&b) equals what is left after minus_in_place of each interval of b.interval_iter(), or of each value of b.iter(), and a.union(&b) likewise, for every b. The last is false for some b that complement leaves: the two results have the same values but compare unequal, and the same later edit tells them apart; it is true for every b built by unions, and for any other b whose listed intervals have values exactly if collecting these gives a selection equal to b. After any given programs of C154, two lists of removals, two of additions, or minus or union and a list, come to the same exactly if they agree on the flags of the machine that count: on the values the first program has (or has not yet), on its holes, and on what it joins (or not yet).",
  "all selections of any history to begin with, all sequences of additions, and all of removals, of any length, of obtainable intervals that are empty or have a value and of union-built selections, both build kinds; every lawful Finite type",
  "Quantifies over all ways to cut a set of values into a sequence of operands, and over all histories before.",
  "src/selection.rs:804-806 union_in_place", "src/selection.rs:847-849 minus_in_place", "src/selection.rs:640-642 union", "src/selection.rs:664-666 minus", "src/selection.rs:857-859 interval_iter", "src/selection.rs:34-40 PartialEq for Selection")
p("Ways to ask whether one selection or interval lies within another",
  "The crate has no subset test, and a user writes one from the other operations. Each way is right: a.union(&b) == b; a.complement().union(&b).is_full(); a.minus(&b).is_empty(); !a.intersects(&b.complement()); every interval i of a.interval_iter() has one j of b.interval_iter() with nothing in i.minus(&j), or with i.intersect(&j) == i. For selections built by unions the first two and the fifth are; the third says false also if b misses a value that a misses alone (even for b = a); the fourth can say true wrongly (it says true exactly if for no k the k-th interval of a has a value in the k-th gap of b), and says true whenever the first does; the sixth says false if a has a value alone. Of any history, the first, second and fifth say true only if it is so, but may say false when it is. For what the programs of C154 make, the first two say true exactly if all flags of a are flags of b, the third if moreover no hole of a is at an edge of b. For two intervals i.minus(&j) is right always, i.intersect(&j) == i and i.enclose(&j) == j exactly for operands in the form that intersect and enclose give.",
  "all pairs of selections, built by unions or of any history as said, all pairs of obtainable intervals, both build kinds; every lawful Finite type",
  "Quantifies over all pairs of selections and compares six expressions with a relation of sets; which pairs are answered wrongly depends on single values missing or standing alone.",
  "src/selection.rs:640-642 union", "src/selection.rs:554-556 complement", "src/selection.rs:664-666 minus", "src/selection.rs:501-504 intersects", "src/selection.rs:857-859 interval_iter", "src/selection.rs:320-322 is_empty", "src/selection.rs:345-347 is_full", "src/interval.rs:1641-1647 minus", "src/interval.rs:1593-1595 intersect", "src/interval.rs:1667-1669 enclose")
p("Ways to ask whether two selections have no value in common",
  "Each of these is true exactly if no value is in both a and b: !a.intersects(&b); a.intersect(&b).is_empty(); a.minus(&b) == a; a.union(&b.complement()) == b.complement(); a.complement().union(&b.complement()).is_full(); no two intervals of the two interval_iter() with i.intersects(&j). Only the last is, for selections of any history. For selections built by unions the third, fourth and fifth are true exactly if, in addition, no value of the one is next to one of the other, so that they agree with each other and do not depend on which selection comes first; of any history, the fourth and fifth are true only if no value is in both. For what the programs of C154 make, the fourth and fifth are true exactly if no flag is one of both, the third if moreover no hole of a is at an edge of b and no value of b that is not joined to its neighbours has a joint of a beside it. The first two always agree and can be wrong either way: for selections built by unions they are true exactly if for no k the k-th interval of a shares a value with the k-th interval of b or has a value next to one of it.",
  "all pairs of selections, built by unions or of any history as said, both build kinds; every lawful Finite type",
  "Quantifies over all pairs of selections; which are answered wrongly depends on neighbouring values and on the walk over both trees.",
  "src/selection.rs:501-504 intersects", "src/selection.rs:597-599 intersect", "src/selection.rs:664-666 minus", "src/selection.rs:640-642 union", "src/selection.rs:554-556 complement", "src/selection.rs:857-859 interval_iter", "src/selection.rs:320-322 is_empty", "src/selection.rs:345-347 is_full", "src/interval.rs:1516 intersects")
p("Ways to cut a selection down to a window",
  "To keep the values of a selection from l to u: collecting i.intersect(&w) for the listed intervals i (w the closed interval from l to u) keeps exactly them, whatever the history, and the result is as if built by unions; so does complement().union(&Selection::from(w).complement()).complement(). Removing what is below l and what is above u by minus_in_place keeps them, too, whatever the history, except that l or u comes in if the complement lists it as a point (for a selection built by unions: if it is missing alone). For a selection built by unions, s.intersect(&Selection::from(w)) cuts the first run and loses all others; and Selection::from(w).intersect(&s) keeps them only up to the first run of s that does not touch the window (so nothing, if the first run lies well below it). When intersect_in_place(w) is right is told by C86.",
  "all selections, built by unions or of any history as said, all l <= u (all l and u for the first two), both build kinds; every lawful Finite type",
  "Quantifies over all selections and windows; what is lost or comes in depends on the runs outside the window and on single missing values at its ends.",
  "src/selection.rs:847-849 minus_in_place", "src/selection.rs:597-599 intersect", "src/selection.rs:857-859 interval_iter", "src/selection.rs:554-556 complement", "src/selection.rs:640-642 union", "src/selection.rs:927-930 From<Interval>", "src/interval.rs:1593-1595 intersect")
p("Sending what has changed between two versions of a selection",
  "A sender lists what has gone and what has come between two versions of a selection, a receiver applies the two lists to a copy of the old version. If the sender forms the differences by complement().union(&other).complement() the lists are right, whatever the history of the versions; if the receiver unites what has gone with the complement, complements again and adds what has come, the copy gets exactly the values of the new version, over any number of versions. If the sender lists old.minus(&new) and new.minus(&old), both built by unions, and the receiver calls minus_in_place and then union_in_place for each interval, the copy has, besides the new version, exactly those values missing from both versions that are missing alone from the old one and not beside a value of the new one, or missing alone from the new one and beside a value of the old one; so it is right, and lists what the new version lists, exactly if there are none. With right lists a value missing alone from the old version comes in exactly if a neighbour has gone, and if what has come is put in first, a value missing alone from both together: so taking out first is never worse. For a copy of any history with right lists, the values that come in are those its complement (taken after the additions, if these come first) lists as points and that lie beside an interval that has gone; so the copy gets exactly the new version exactly if each of them is in it, and taking out first is never worse either.",
  "all pairs of selections, built by unions or of any history as said, all sequences of versions, both build kinds; every lawful Finite type",
  "Quantifies over all pairs and sequences of versions; errors appear only around single missing values, on either side of the exchange, and some of them cancel out.",
  "src/selection.rs:664-666 minus", "src/selection.rs:847-849 minus_in_place", "src/selection.rs:804-806 union_in_place", "src/selection.rs:857-859 interval_iter", "src/selection.rs:554-556 complement", "src/selection.rs:640-642 union")
p("Handing out blocks of numbers, first fit",
  "A program hands out blocks of consecutive numbers, each time the first that fits, found as the first interval of interval_iter() whose size() is large enough; users give numbers back. The search does find the lowest block that fits, or tells that none does. With the free numbers kept in a selection, blocks taken out by complement, union_in_place, complement and put back by union_in_place, all answers are right whatever the calls, and no number is handed out while in use. With blocks taken out by minus_in_place a number in use can be handed out; not so if at first no single number is missing, all blocks have two numbers or more and are given back as a whole. Exactly, with all numbers free at first: all answers are right up to and including the first block handed out that touches, without containing it, a number y in use where of the calls that reached y-1 or y the latest gave back, and so of those that reached y or y+1; then y counts as free. This never happens with whole pages of two numbers or more, asked for and given back in any portions. With the numbers in use kept, as complement of those free at first, all answers are right whatever the calls although blocks are put back by minus_in_place; if the numbers in use at first come from unions instead, free numbers can be lost.",
  "all sequences of calls, all block sizes, all numbers free at first, both build kinds; every unsigned integer range",
  "Quantifies over all sequences of takes and gives; the two ways of keeping the numbers look alike, and which of them goes wrong depends on how single missing numbers came to be.",
  "src/selection.rs:857-859 interval_iter", "src/interval.rs:978-983 size", "src/selection.rs:847-849 minus_in_place", "src/selection.rs:804-806 union_in_place", "src/selection.rs:554-556 complement")
p("Putting a stream together from segments",
  "A receiver gets segments of a stream in any order, overlapping and repeated, adds each by union_in_place to a selection, and passes on the first interval of interval_iter() if it contains the value due next. If it keeps all it has received, or keeps only what it has not passed on and takes out what it passes on by complement, union_in_place, complement, it passes on with each segment exactly what has become ready, and so all of it, in order and nothing twice. If it takes out by minus_in_place it can pass on values it has not received; it does not exactly if each value that is missing alone behind what has just been passed on comes with the next segment, if there is one (so in particular if the value due next is never missing alone between values received).",
  "all sequences of segments (also empty ones), both build kinds; every lawful Finite type",
  "Quantifies over all sequences of segments; the wrong values appear only if a single value is outstanding when the values before it are passed on.",
  "src/selection.rs:804-806 union_in_place", "src/selection.rs:857-859 interval_iter", "src/selection.rs:847-849 minus_in_place", "src/selection.rs:554-556 complement", "src/interval.rs:958-960 supremum")
p("What iterating the intervals from the back gives",
  "Group the intervals of a tree or selection so that neighbours are together if just one point lies between them. With debug assertions interval_iter().rev() lists, from the last to the first, every other interval of each group if every group has an odd number of intervals, and an assertion fails otherwise. So what it lists are intervals of the set in descending order, but not all of them. Without debug assertions it never panics, lists the same where no assertion would fail, and otherwise goes on to list gaps between the intervals in their place: for {1, 5, 7} it lists 7, then 3, then an empty interval.",
  "all reachable trees over every linear order; all selections built by unions and all reachable ones whose intervals all have a value (there a missing value counts if the complement lists it as Interval::point); all reachable selections (release builds, soundness); every lawful Finite type",
  "Quantifies over all sets; what is listed depends on the lengths of all groups.",
  "src/tine_tree.rs:1148-1178 Iter::next_back", "src/tine_tree.rs:1058-1088 IntoIter::next_back", "src/tine_tree.rs:937-943 interval_iter", "src/selection.rs:1034-1039 IntervalIter::next_back", "src/selection.rs:857-859 interval_iter")
p("What iterating the values from the back gives",
  "Group the runs of a selection so that neighbours are together if just one value is missing between them. With debug assertions each next_back call on iter() gives the greatest value not yet returned out of every other run of each group, from the last group down to the first group with an even number of runs; after these values comes None for good if all groups are odd, and a failed assertion otherwise. If all groups are odd a build without assertions does the same. In any build and whatever the history of the selection, the values from the back are those of the intervals that interval_iter lists from the back, one interval after the other and each from its greatest value down (an interval without values that is not empty gives its upper end once), whenever that listing does not panic; it never does in release builds. So {1, 3, 5} from the back is 5, 1; and {1, 5, 7} is in release builds 7, then 3, which is not in the selection, then None; and {0, 2} is in release builds 2, then 255, 254, and so on.",
  "all selections built by unions and all reachable ones whose intervals all have a value (there a missing value counts if the complement lists it as Interval::point), any number of calls; every lawful Finite type, also with infinite runs",
  "Quantifies over all selections and numbers of calls; which values come depends on the lengths of all groups.",
  "src/selection.rs:1151-1166 Iter::next_back", "src/selection.rs:1089-1104 IntoIter::next_back", "src/selection.rs:873-878 iter", "src/tine_tree.rs:1148-1178 Iter::next_back", "src/interval.rs:1886-1898 Iter::next_back")
p("Switching values and intervals on and off",
  "The values in exactly one of two selections are what a.complement().union(&b).complement().union(&b.complement().union(&a).complement()) contains; the order of a and b makes no difference, doing it again with b gives a value equal to a, and nothing is left exactly if a == b. Switching intervals one after the other in this way, a value ends up on if the number of intervals that contain it is odd, or even and it was on. The shorter a.minus(&b).union(&b.minus(&a)) is right exactly if no value that neither contains, with both neighbours in one of them, is next to a value of the other ({2, 4} with itself leaves 3); for selections of any history, where both differences are as the machine of C154 says, exactly if each hole of the one at an edge of the other is a value of the other; a.union(&b).minus(&a.intersect(&b)) is wrong too. Switching a single value by contains, minus_in_place and union_in_place is right exactly if the value was off, or is not next to one that the complement lists as a point: 2, 4 and 4 again leaves 3 on. Of a sequence of such switches, after any ranges put in by union_in_place and taken out by minus_in_place without going wrong (C156), each is right exactly if no value is switched off next to one that is off, both neighbours of which have come in since it was last in; the first such switch leaves on exactly the values it is so next to, besides what should be on. From Selection::new() none is wrong if no two of the values switched have exactly one value between them.",
  "the way by complements and the switching of one value: all reachable selections, all sequences of intervals; minus: all selections built by unions; sequences of values: all sequences from the empty selection or any changed in place from it, and a sufficient condition from all selections made by unions, in-place edits and complement; every lawful Finite type",
  "Quantifies over all pairs of selections and all sequences of switches; a test that switches values far apart passes.",
  "src/selection.rs:664-666 minus", "src/selection.rs:554-556 complement", "src/selection.rs:640-642 union", "src/selection.rs:847-849 minus_in_place", "src/selection.rs:804-806 union_in_place", "src/selection.rs:597-599 intersect")
p("Asking trees over dense orders about inclusion and overlap",
  "For trees over a dense order without ends, such as the rational numbers, each of a.union(&b) == b, a.complement().union(&b).is_full() and 'every interval i of a has one j of b with i.intersect(&j) == i' is true exactly if every point of a is in b; each of a.union(&b.complement()) == b.complement(), a.complement().union(&b.complement()).is_full() and 'no intervals i of a and j of b with i.intersects(&j)' exactly if no point is in both. a.minus(&b).is_empty() and a.minus(&b) == a are right if no interval of b ends at, and no single point of b is, a bound that a excludes on both sides (for a point: on one side); otherwise they can be wrong, even for b = a. a.intersect(&b).is_empty() is true exactly if for no k the k-th intervals of the two have a common point, so that it can be wrong too.",
  "all pairs of reachable trees over every dense order without end points, both build kinds",
  "Quantifies over all pairs of trees over infinite orders; every example with one interval each passes.",
  "src/tine_tree.rs:126-178 complement", "src/tine_tree.rs:182-204 intersect", "src/tine_tree.rs:209-215 union", "src/tine_tree.rs:220-226 minus", "src/tine_tree.rs:96-106 is_empty, is_full")
p("Sorting values and writing them as ranges",
  "Collecting any sequence of values into a selection and iterating over it gives the values in ascending order, each once, and then None for ever; from the back, in debug builds, it gives them in descending order exactly if the sequence has no two values with exactly one value between them that it lacks; listing its intervals writes them as ranges: closed intervals [l, u], where a value goes into the range that begins at its successor and begins a new one otherwise. Collecting these intervals gives the very selection back. Two sequences are collected to equal selections exactly if they sort to the same list, and the union of two collected sequences equals the selection collected from one after the other.",
  "all finite sequences of values, with repetitions and in any order, over every finite type, both build kinds, any number of calls of next",
  "Quantifies over all sequences and all orders of insertion.",
  "src/selection.rs:953-960 from_iter (values)", "src/selection.rs:938-945 from_iter (intervals)", "src/selection.rs:873-878 iter", "src/selection.rs:1130-1145 Iter::next", "src/selection.rs:857-859 interval_iter", "src/selection.rs:640-642 union")
p("Finding the next value at or after a given one",
  "To find the least value of a selection at or after x (the next event, the next number in use): the first answer of i.intersect(&Interval::unbounded_from(x)).infimum() over interval_iter() is it, and None if there is none, whatever the history of the selection; the last answer of i.intersect(&Interval::unbounded_to(x)).supremum() is the greatest at or before x, and the first answer over the intervals of the complement is the least missing value at or after x. The first value of iter() that is at least x is it, for selections made by unions, complement of such, and removals of intervals. For these, removing Interval::unbounded_up_to(x) by minus_in_place and asking lower_bound() gives it unless x is missing alone between two values, and then gives x; so it is right exactly if x is not missing alone. Cutting by intersect with Selection::from(Interval::unbounded_from(x)) and asking lower_bound(), for a selection made by unions, looks at the first run only, and gives x if x comes right after that run; so it is right exactly if x does not come right after the first run, and comes after it only if there is no value at or after x.",
  "all selections of the stated histories, all values x, over every finite type, both build kinds",
  "Quantifies over all selections and values; if x is before the end of the first run every way is right.",
  "src/selection.rs:857-859 interval_iter", "src/interval.rs:1593-1595 intersect", "src/selection.rs:847-849 minus_in_place", "src/selection.rs:158-160 lower_bound", "src/selection.rs:597-599 intersect", "src/selection.rs:554-556 complement")
p("A tree written to a file line by line and read back",
  "A TineTree is written by printing each interval of interval_iter() on a line, and read by parsing each line and collecting the intervals. For values whose texts are read back, keep clear of interval syntax and have no line breaks, so for all integer types, reading gives the very tree that was written; the lines can be reordered, and two files read as one give union of the trees; trees are equal exactly if they are written alike. Whatever the text, reading does not panic: it gives the first parse error or a proper tree.",
  "all reachable trees over every such type (all integer types included), all texts, all orders of lines, both build kinds",
  "Quantifies over all trees and all strings.",
  "src/raw_interval.rs:440-457 Display::fmt", "src/raw_interval.rs:462-499 from_str", "src/tine_tree.rs:937-943 interval_iter", "src/tine_tree.rs:978-986 from_iter", "src/tine_tree.rs:209-215 union")
p("Intervals of integers are read by the numbers written",
  "For every integer type, the text of a bound (or of a single value) is read as the number that its decimal digits write, leading zeros and a plus sign making no difference and a minus sign being understood by signed types only. Two such numbers in brackets are read as the interval between them if both are values of the type; a number beyond the type is refused with the matching overflow error, that of the lower bound first, and never wrapped or clamped. Conversely an interval with two finite bounds is read only from the text of these numbers.",
  "all integer types, all strings, numerals of any length",
  "Numerals have any length and value; tests show a few strings.",
  "src/raw_interval.rs:462-499 from_str")
p("The longest run and the longest gap of a selection",
  "For a selection of integers edited in place, interval_iter().max_by_key(|i| i.size()) finds the last of the longest runs of neighbouring values, and the same on the complement the last of the longest gaps; it finds nothing exactly if there is no value, or no gap. For unsigned types this never panics and release builds agree; for signed types debug builds panic exactly if a run is longer than the greatest value, where release builds take another run for the longest.",
  "all integer types, all selections made by adding and removing intervals, unions, differences and complements, both build kinds",
  "Quantifies over all selections and all blocks of values within them.",
  "src/selection.rs:857-859 interval_iter", "src/interval.rs:978-983 size", "src/selection.rs:554-556 complement")
p("Counting how many intervals cover a value, by a pile of selections",
  "Put intervals one after the other on a pile of selections: each selection takes the new part by union and hands what it already had down to the next. Then the selection number k of the pile (from 0) has exactly the values that more than k of the intervals contain, whether the common part is found by complements (not (not a or not b)) or by collecting the intersections of the listed intervals. With the intersections is_empty of a selection is right (if an interval without values is among them, of all selections but the first, which is empty exactly if all intervals are is_empty), and the number of non-empty selections is the greatest number of intervals with a common value. With the complements is_empty of the selection number k holds exactly if no two neighbouring values are reached by more than k of the intervals together, so intervals that merely touch count as overlapping.",
  "all finite types, all lists of intervals, all values, both build kinds",
  "Quantifies over all lists of intervals, of any length and with any overlap.",
  "src/selection.rs:640-642 union", "src/selection.rs:554-556 complement", "src/interval.rs:1593-1595 intersect", "src/selection.rs:857-859 interval_iter", "src/selection.rs:320-322 is_empty")
p("Keeping the runs of a selection that meet a condition, closing the gaps that meet one",
  "For a selection edited in place and any condition on intervals, s.interval_iter().filter(p).collect() has exactly the runs of s that meet the condition and lists just these, and s.extend(s.complement().interval_iter().filter(p)) adds exactly the gaps that meet it and leaves just the others. Taking the other runs out with minus_in_place leaves moreover exactly the values that were missing alone with a neighbour in a run taken out. With sizes of unsigned numbers, filter(|i| i.size() >= Some(k)) keeps exactly the values that lie in a block of more than k values of s, and filter(|i| i.size() < Some(k)) on the complement leaves out exactly the values that lie in a block of more than k missing values. For signed numbers, debug builds can panic and release builds take a long run for a short one. For a selection of any history, filtering keeps exactly the values whose listed interval meets the condition and adds exactly the missing values whose listed gap meets it; but listed intervals need not be runs then, and asking for the size of one without values can panic.",
  "all finite types, all conditions, all selections made by adding and removing intervals, unions, differences and complements (built by unions for minus_in_place), all unsigned types for sizes, both build kinds",
  "Quantifies over all selections with any number of runs and all conditions on them.",
  "src/selection.rs:857-859 interval_iter", "src/selection.rs:933-946 FromIterator<Interval<T>>", "src/selection.rs:909-920 Extend", "src/selection.rs:554-556 complement", "src/selection.rs:847-849 minus_in_place", "src/interval.rs:978-983 size")
p("Padding, trimming and shifting the intervals of a selection",
  "For a selection of integers edited in place, collecting the intervals closed(infimum.saturating_sub(k), supremum.saturating_add(k)) of those that interval_iter yields gives exactly the values at most k away from a value of the selection; the same on the complement, and the complement of that, gives exactly the values around which no value of the type is missing up to k away. Collecting closed(infimum + k, supremum + k) gives exactly the values shifted by k, and panics in debug builds exactly if one of them is beyond the type; a release build then loses the values of the interval that would be cut in two. For other histories the exact condition is about the listed intervals without values, whose ends are padded and shifted too.",
  "all integer types, all k (not negative for padding), all selections made by adding and removing intervals, unions, differences and complements, both build kinds",
  "Quantifies over all selections, all distances and all integer types, with the overflow at the ends of the type.",
  "src/selection.rs:857-859 interval_iter", "src/selection.rs:933-946 FromIterator<Interval<T>>", "src/selection.rs:554-556 complement", "src/interval.rs:917-960 infimum, supremum", "src/interval.rs:415-417 closed")
p("A table of intervals with values: the last assignment counts",
  "Keep a Vec of pairs (interval, value). To assign v to interval i, replace every entry (j, w) by (k, w) for each k of j.minus(&i) and push (i, v); to clear i, do only the first. Then after any changes the first entry that contains x has the value last assigned to x, there is none if x was cleared after that or never assigned, no value of the type is in two entries, and there are at most 2a + c - 1 entries after a assignments and c removals. Keeping one Selection for each value, with union_in_place for the value assigned and complement, union_in_place, complement for all others, gives in each exactly the values last assigned it. With minus_in_place for the others no selection loses a value, and a wrong value in it lies beside an interval that was given another value; that does happen. Exactly: a selection then holds, besides the values last assigned its value v, the values x beside which another value was assigned at a time when the last assignments reaching x or its neighbour, on either side, were of v, and that were not assigned since.",
  "all sequences of changes with any intervals of the API, all values, every lawful Finite type, both build kinds",
  "Quantifies over all sequences of changes of any length; that entries stay disjoint and are cut at most once per change is an invariant of the whole history.",
  "src/interval.rs:1641-1647 minus", "src/interval.rs:1488-1490 contains", "src/selection.rs:804-806 union_in_place", "src/selection.rs:847-849 minus_in_place", "src/selection.rs:554-556 complement")
p("Cutting the line at the ends of intervals",
  "Begin with the list [Interval::full()] and for each interval i replace every piece p by p.intersect(&i) and those of p.minus(&i), leaving out what is_empty() reports. The pieces then have every value of the type exactly once, none is without values, and two values are in the same piece exactly if each of the intervals has all values from the one to the other or none of them. So each piece lies in each interval or outside it, all values of a piece are in the same intervals, and there are at most 2n + 1 pieces for n intervals. An interval without values, which an open interval between neighbours is, separates exactly what is at or below its supremum from what is above; the rest holds with such intervals too.",
  "all lists of intervals, with or without values, all values, every lawful Finite type",
  "Quantifies over all lists of intervals; that the pieces are the coarsest that any of the intervals can be put together from is a statement about all values between two.",
  "src/interval.rs:1593-1595 intersect", "src/interval.rs:1641-1647 minus", "src/interval.rs:1488-1490 contains", "src/interval.rs:1008-1010 is_empty")
p("Counting, ranking and picking values by the sizes of intervals",
  "For a selection s of an integer type, the sum of size().unwrap() + 1 over s.interval_iter() is the number of values of s; the sum of those of the intervals intersected with Interval::unbounded_to(x), leaving out the ones without a size, is the number of values of s up to x; and counting off k against the sizes and adding what is left to the infimum() of the interval gives the value of s that has exactly k smaller values in s, or nothing if s has not as many. This holds as long as no run of s is longer than the type can say, which is always so for unsigned types; otherwise, and only then, counting panics in debug builds. Counting up to x is right whatever the history of s, so that counting up to T::MAX always counts s; without the intersection, intervals without values, which only other histories list, make counts of unsigned types panic in debug builds and wrap in release builds.",
  "all selections built from intervals and edited in place (counting up to x: of any history), all values, all positions, all integer types with zero, both build profiles",
  "Quantifies over all selections; that sizes add up to the number of values relies on the intervals having no value twice and none being left out, and the exact condition of the overflow is about all runs.",
  "src/selection.rs:857-859 interval_iter", "src/interval.rs:1593-1595 intersect", "src/interval.rs:917-960 infimum and supremum", "src/interval.rs:978-983 size")
p("Rounding a selection to blocks",
  "Let f give the block of a value (the page of an address, the day of an instant) and send each range of values onto the range of blocks between those of its ends. Collecting Interval::closed(f(i.infimum()), f(i.supremum())) over s.interval_iter() gives the blocks that have a value of s; doing so to the complement and complementing gives the blocks all of whose values are in s; going back from the first value of a block to the last gives s rounded out, and by way of the complements rounded in. This is so of no other f, and it is so of x.div_euclid(k) for blocks of k integers.",
  "all selections built from intervals and edited in place, all types of values and of blocks with lawful Finite implementations, all maps f, both build profiles; for selections of any history, the exact condition",
  "Quantifies over all selections, all maps and all pairs of types; whether an interval without values is listed, and so adds a block, depends on the whole history.",
  "src/selection.rs:857-859 interval_iter", "src/selection.rs:933-946 FromIterator", "src/selection.rs:554-556 complement", "src/interval.rs:917-960 infimum and supremum")
p("Looking up a value in the listed intervals by binary search",
  "Collect s.interval_iter() into a vector and search it with binary_search_by, comparing supremum() and infimum() of an interval with x. The outcomes are in order, first Less, then at most one Equal, then Greater, so that any way of halving finds the interval with x exactly if s contains x, and otherwise the place with all intervals of smaller values before it and all of greater values after it; this holds whatever the history of s. For selections edited in place the supremum of the interval before the place and the infimum of the one after it are the nearest values of s (for others an interval without values can be beside the place).",
  "all selections of any history, all values, all strategies of halving, both build profiles; the nearest values for all selections edited in place; every lawful Finite type",
  "Quantifies over all selections and all ways to search; intervals without values have their ends in reverse order, and whether the list is still in order for the search depends on every history.",
  "src/selection.rs:857-859 interval_iter", "src/interval.rs:917-960 infimum and supremum", "src/tine_tree.rs:1106-1143 Iter::next")
p("Intersecting two selections by a merge sweep",
  "Walk down the interval_iter() of two selections at once, take i.intersect(&j) of the two current intervals, drop the one whose supremum() is smaller, and collect the results: this gives exactly the values in both selections, whatever their histories, with at most as many steps as both have intervals; it does not panic; and the result compares equal for all pairs of selections with the same values in common.",
  "all pairs of selections of any history, both build profiles; every lawful Finite type",
  "Quantifies over all pairs of selections of any history, including those that list intervals without values, with which Selection::intersect goes wrong.",
  "src/selection.rs:857-859 interval_iter", "src/interval.rs:1593-1595 intersect", "src/interval.rs:917-960 infimum and supremum", "src/selection.rs:933-946 FromIterator")
p("Sorting intervals and merging those that overlap",
  "Sort a vector of intervals with values by infimum() and go through it, replacing the last interval c put out by c.enclose(&j) if j overlaps it (intersects) or begins right after it (succ of c.supremum() is j.infimum()), and putting j out otherwise. The result is the maximal runs of the values of the intervals, in ascending order, and is what the selection collected from the unsorted intervals lists. With intersects alone the results are still disjoint and ascending and have the same values, and two values are in one of them exactly if every step from a value to the next between them is within one of the intervals; so the result is the same exactly if every two neighbouring values of the intervals are together in one of them. For any intervals the first is right after those have been thrown away whose infimum() is None or greater than their supremum(), which are exactly those without values; if they are kept, as into_non_empty keeps the open interval between neighbours, overlapping intervals can stay unmerged.",
  "all lists of intervals with values, for the last part all lists of intervals, every order that sorting by infimum can leave, every lawful Finite type",
  "Quantifies over all lists of intervals of any length and all ways to sort them; that one pass in order of the infimum is enough depends on all intervals put out before.",
  "src/interval.rs:1516-1518 intersects", "src/interval.rs:1667-1669 enclose", "src/interval.rs:917-960 infimum and supremum", "src/selection.rs:933-946 FromIterator", "src/selection.rs:857-859 interval_iter", "src/normalize.rs:36-37 Finite::succ")
p("Implementing Finite for types put together from others",
  "Given lawful implementations of Finite for the parts, the obvious ones for a pair or struct with the derived order (step the last field, and when it has no successor step the first and set the last back to MINIMUM), for an Option (None first), for an enum with two variants that have a field, and for a reversed order are lawful, so that all that is said of lawful types holds for them, and for pairs it is the only lawful one. For a type with an array of its values, stepping to the next element of the array is lawful exactly if every value is in the array and the array is strictly ascending. A closed interval of pairs contains exactly the pairs between its ends in the derived order, which is more than the rectangle between them. Stepping the first field first, or not setting the last field back, is not lawful, and then open intervals lack values between their ends.",
  "all lawful component types of any size, all arrays",
  "Quantifies over all component types and all values of them; that the steps are the neighbours in the derived order cannot be sampled.",
  "src/normalize.rs:26-38 Finite", "src/interval.rs:223-225 open", "src/interval.rs:415-417 closed", "src/interval.rs:1488-1490 contains")
p("Implementing Finite for parts of a type and for dependent fields",
  "Given a lawful implementation of Finite for a type, the obvious ones are lawful for a wrapper whose constructor only lets the values from lo to hi in (hours of a day), for a wrapper that leaves out the values from g to h (as char leaves out the surrogates), and for a struct whose second field has a range depending on the first (days of a month). They are the only lawful ones for the two wrappers, and a closed interval contains exactly the values between its ends. If the wrapper does not check its values, so that others exist, stopping succ and pred at lo and hi is lawful exactly if lo and hi are the least and greatest value of the whole type; otherwise full() and complements lack the values outside, and an interval from such a value on does not contain it.",
  "all lawful types of any size, all bounds and gaps, all families of ranges",
  "Quantifies over all types and all values of them; that the steps are the neighbours in the order cannot be sampled.",
  "src/normalize.rs:26-38 Finite", "src/interval.rs:754-756 full", "src/interval.rs:415-417 closed", "src/interval.rs:1488-1490 contains", "src/interval.rs:1568-1573 complement")
p("A selection behaves as a flag for each value and one for each two neighbours",
  "Take any program of new, full, from_iter (intervals or values), extend, union_in_place, minus_in_place, complement, union and minus, with branches of any shape, over any intervals a caller can have (also ones without values); where minus is used, a value of the right selection that is not joined to its neighbours must be a value of the left, or the left must have no joint there (otherwise, and only then, minus does not give what the machine says). It never panics. What it makes is told completely by a machine without a tree, with one flag for each value (it is in) and one for each two neighbouring values (they are joined): adding an interval sets the flags of its values and of all pairs with one of its values (or, for an interval without values, of the pair it sits between); union is 'or', complement is 'not'; removing clears the same flags, but also puts in every hole (a value not in, joined on both sides) that stands right beside the interval, and minus every hole at an edge of the other selection. The values contained are those of the machine; == holds exactly if all flags agree; is_empty and is_full hold exactly if all flags are off or on; interval_iter lists the runs of joined values, in order, then also one interval without values for each joint between two values not in, and a single point exactly for a value joined to neither side. Each stage of the program has the values it should have exactly if nothing is removed that has a hole beside it. Of a type with n values every combination of flags occurs, so that there are exactly 2^(2n-1) selections that differ by ==, 2^(n-1) for each set of values, and each that any calls make, intersect and intersect_in_place among them, is made by such a program.",
  "all programs, any length and nesting; all lawful types; both build kinds",
  "Quantifies over all programs that make selections and all values; a test sees one program.",
  "src/selection.rs:804-806 union_in_place", "src/selection.rs:847-849 minus_in_place", "src/selection.rs:554-556 complement", "src/selection.rs:640-642 union", "src/selection.rs:664-666 minus", "src/selection.rs:857-859 interval_iter", "src/selection.rs:914-960 extend, from_iter", "src/tine_tree.rs:414-803 union_in_place, minus_in_place")
p("A window of received numbers",
  "Keep the numbers received (packets, log entries) in a selection that begins as new(): what has come is put in with union_in_place, and what has been dealt with, up to x, is dropped. If it is dropped by complement, union_in_place(Interval::unbounded_to(x)), complement, the selection has exactly the numbers it should have after any calls, from any selection. If it is dropped by minus_in_place(Interval::unbounded_to(x)) nothing panics, and as long as drops do not go back the selection is right up to the first drop up to a received x where x+1 is missing and x+2 is received, and wrong after it: x+1 then counts as received. This is the usual drop up to the first gap: 1, 2, 3 and 5 come, are dropped up to 3, and contains(4) is true. If drops go back the condition is another.",
  "all sequences of calls of any length, with any intervals that are empty or have a value (any at all for complements), both build kinds; every lawful Finite type",
  "Quantifies over all sequences of receipts and drops; the failing ones have a gap of exactly one number at the edge of a drop.",
  "src/selection.rs:804-806 union_in_place", "src/selection.rs:847-849 minus_in_place", "src/selection.rs:554-556 complement", "src/interval.rs:635-637 unbounded_to", "src/tine_tree.rs:612-803 minus_in_place")
p("The allocated parts of a sparse file",
  "Keep what is allocated (of a file, a heap, a cache) in a selection that begins as new(): union_in_place(i) when a range is written and minus_in_place(i) when it is freed, in any order. Nothing panics, and the selection is exactly what was written and not freed since, up to the first time a range is freed that touches, without containing it, a value y that is not allocated, where of the calls that reached y-1 or y the latest was a write and of those that reached y or y+1 the latest was a write. Freeing that range makes the selection wrong: exactly these y then count as allocated though they are not. After any calls, whatever went wrong before, the selection is what was written and not freed since and besides exactly the y at which that happened at some time and that were in no range written or freed since. So 1 to 4 and 6 to 9 written and 6 to 7 freed leaves 1 to 5, though 1 to 9 written, 5 freed and 6 to 7 freed leaves 1 to 4 and 8 to 9. If the ranges are made of pages of two values or more (each value has a neighbour that is in the same ranges) the selection is always right; and so it is, from any selection and with any intervals, if a range is freed by complement, union_in_place(i), complement.",
  "all sequences of writes and frees of any length, with any intervals that are empty or have a value, both build kinds; every lawful Finite type",
  "Quantifies over all sequences of calls; whether a free is right depends on the order of all calls before it, not only on what is allocated.",
  "src/selection.rs:804-806 union_in_place", "src/selection.rs:847-849 minus_in_place", "src/tine_tree.rs:612-803 minus_in_place")
p("The free parts of a file or heap",
  "Keep what is free in a selection that begins as full(): minus_in_place(i) when a range is allocated and union_in_place(i) when it is freed, in any order. Nothing panics. After any calls the selection is what is not in use, and besides exactly the values y in use for which at some time a range was allocated that touches y without containing it, while of the calls that reached y-1 or y the latest was to free and of those that reached y or y+1 the latest was to free, and that were in no range allocated or freed since. So a value in use can be found free: 4, 5 and 6 are allocated one by one, 4 and 6 are freed, 4 is allocated, and 5 counts as free. It never happens if nothing is freed, or if the ranges are made of pages of two values or more (each value has a neighbour that is in the same ranges).",
  "all sequences of calls of any length, with any intervals that are empty or have a value, both build kinds; every lawful Finite type",
  "Quantifies over all sequences of calls; whether an allocation is right depends on the order of all calls before it, not only on what is in use.",
  "src/selection.rs:110-112 full", "src/selection.rs:804-806 union_in_place", "src/selection.rs:847-849 minus_in_place", "src/tine_tree.rs:612-803 minus_in_place")

out = os.path.join(os.path.dirname(os.path.dirname(os.path.abspath(__file__))), "properties.jsonl")
with open(out, "w") as f:
    for x in P: f.write(json.dumps(x, ensure_ascii=False) + "\n")
print(len(P))
