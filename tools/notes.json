{
 "C11": "Points and well-formedness proved for all arguments; for arguments in ascending order the result is the canonical interval list of the collected tree (C11_ascending_partial), and two arguments are handled as by union (C11_two); disjointness is false in other orders (C11_counterexample). Exactly when the result is disjoint: C11_exact_iff.",
 "C12": "Enclosure proved; minimality is false because enclose_all always returns Full (C12_always_full, C12_counterexample); it holds exactly if the arguments reach as low and as high as any point (C12_exact_iff).",
 "C17": "Proved for intervals with at least two points; false for those with one or none (C17_counterexample). Exactly when equal point sets give equal normal forms: C17_exact_iff.",
 "C18": "Proved for every variant except To and From, hence for every normalized interval; false for To and From (C18_counterexample). Exact: C18_exact_iff.",
 "C22": "Proved except for empty ranges a..a, for which it is false (C22_counterexample). Exact: C22_exact_iff.",
 "C24": "Right exactly for intervals other than open(l, succ l) (C24_exact_iff); false for those (C24_counterexample).",
 "C25": "One direction each for all intervals; both for intervals made by closed and for intersections (C25_count); what the predicates report for each constructor is C25_constructors; the converses are false (C25_counterexample). Exactly when each predicate is right: C25_exact_iff.",
 "C26": "Proved for intervals with at least two points, for closed(..) and for intersections (C26_count); otherwise false (C26_counterexample). What equality does depend on: C26_exact_iff.",
 "C28": "Right exactly unless the arguments are open(p, q) and open(q, r) with successive neighbours p, q, r (C28_exact_iff); false for those (C28_counterexample).",
 "C30": "Enclosure proved; minimality proved for arguments which contain a point or report empty, false otherwise (C30_counterexample). Exactly when minimal: C30_exact_iff.",
 "C31": "Right exactly for intervals other than open(l, succ l) (C31_exact_iff); false for those (C31_counterexample).",
 "C32": "Right for every call sequence exactly for intervals other than open(l, succ l) (C32_exact_iff); false for those (C32_counterexample).",
 "C33": "Proved whenever the difference is representable, always so for unsigned types; false otherwise (C33_counterexample). Exact: C33_exact_iff. Release builds wrap instead of panicking: C33_release.",
 "C37": "Proved, with no panic, unless a bound of the removed interval is an excluded point of the tree (C37_minus_in_place_partial); the exact result for all two-ended intervals is C37_minus_proper_exact; the property is false otherwise (C37_counterexample). C37_exact_iff: the safe cases are exactly the ones that work.",
 "C38": "Right whenever the ends of the interval are placed as CutClean describes (any order); on dense unbounded orders exactly then (C38_exact_iff), and on every order exactly then or when a tree away from an interval without points is replaced by that interval (C38_every_order_iff); also proved when both ends lie inside tree intervals or the interval is Empty/Full/a point. False, or panicking, otherwise (C38_counterexample). With two included ends that are isolated points of the tree, release builds are right while debug builds panic. Exactly when it panics: C100.",
 "C41": "No panic and result contained in both trees proved in general; on every order the result is described exactly (C41_formula) and is right if and only if all intervals that share a point come together in the walk (C41_exact_iff_together); lock step suffices (C41_lock_step_partial) and is necessary on dense unbounded orders (C41_exact_iff); false in general (C41_counterexample).",
 "C42": "Proved when each removed interval avoids the excluded points of the left tree, and false otherwise (C42_counterexample): the result is described exactly if single points are removed safely (C42_formula), it is then right if and only if all removals are safe (C42_exact_iff), and on dense unbounded orders this needs no condition (C42_dense_iff). On every order, with no condition: C42_every_iff says exactly when the result is right and a proper tree (removals that break the tree and are put right by the next one included).",
 "C46": "Proved for trees without excluded single points; false with one (C46_counterexample); with two next to each other an interval is lost silently (C46_lost_counterexample). C73 is the equivalence.",
 "C50": "No panic, every point of i removed and no other point lost, for all histories; the exact result set is C50_formula_partial; exact for carved selections; false when a single missing value touches the removed interval (C50_counterexample). Exactly when right on union-built selections: C50_exact_iff. For selections of any history, in terms of what the complement lists: C50_formula_any, C50_exact_any.",
 "C51": "Exact when the selection reaches both ends of the interval, or crosses one and stays clear of the other; otherwise wrong points, a corrupt tree or a panic (C51_counterexample). Exactly when right on union-built selections: C51_exact_iff. For selections of any history, in terms of the intervals kept in the tree: C51_exact_any; for all intervals: C51_every_any. Exactly when it panics: C100.",
 "C52": "No panic and result contained in both proved for all histories; for union-built selections the results of intersect and intersects are described exactly (C52_formula) and intersect is right if and only if all intervals that share a point come together in the walk (C52_exact_iff); for any histories the same in terms of the intervals kept in the selections (C52_formula_any, C52_exact_any); for complements exactly in lock step (C52_complements_iff); false otherwise (C52_counterexample, C52_intersects_counterexample).",
 "C53": "Removal and keeping proved for union-built right sides; exact formula for the result on union-built operands (C53_formula_partial); exact for complements of union-built selections and carved left sides; false otherwise (C53_counterexample). Exactly when right on union-built operands: C53_exact_iff. Left operand of any history: C53_formula_any, C53_exact_any. Both operands of any history: C53_every_iff. The values of the result where the removal is sound, told by single-value edits a caller can try: C53_formula_every, C53_exact_every.",
 "C54": "One direction for all selections; is_empty exact for Solid histories, is_full exact for Tidy ones; false otherwise (C54_counterexample). For any history: is_empty is right exactly unless there are reported intervals and none has a point (C54_exact_iff), is_full exactly unless all values are reported as several intervals (C54_is_full_iff).",
 "C55": "Exact for union-built selections, for their complements, and for collecting intervals or points; false for mixed histories (C55_counterexample). For any history selections compare equal exactly if no changes tell them apart: C122.",
 "C56": "No panic, order and cover for all histories; non-emptiness for Solid, separation and maximality for Tidy, reverse iteration for Carved; false otherwise (C56_counterexample). C73 gives the exact condition for reverse iteration of union-built selections. C56_shape: for any history each reported interval is [l,u] of its points, or the open interval between two absent neighbours. Reverse iteration is right for any history if the complement lists no single point: C56_reverse_any.",
 "C57": "Forward iteration for Solid histories, reverse for Solid and Carved ones; reverse iteration is wrong or panics on a selection lacking a single value (C57_counterexample). {1,3,5} reversed yields 5 and 1 in every build (C57_lost_counterexample). C73 gives the exact condition. For any history forward iteration is right if all reported intervals have points (C57_forward_runs), and on finite types only then (C57_forward_iff). Reverse for any history without such points: C57_reverse_any.",
 "C58": "True for at most one run; with more runs each point is still yielded once but not in order (C58_drain_partial, C58_counterexample). Exactly when mixed iteration is right: C58_exact_iff. Mixed calls for any history without such points: C58_drain_any. For any history, without such missing values: C58_drain_any, C58_exact_any.",
 "C59": "lower_bound/upper_bound proved for Solid histories; infimum/supremum of a union-built selection are one off (C59_infimum_partial, C59_counterexample). Union-built selections: never the least or greatest point (C59_never); on complements right except at the ends of the type (C59_complement). For any history the bounds are right exactly if the first (last) reported interval has a point (C59_bounds_iff). infimum (supremum) of any selection is the value of its lower (upper) bound or the neighbouring value outside: C59_infimum_any.",
 "C60": "Left/right/half bounded proved for all histories; is_bounded is false for the empty selection (C60_counterexample). For any history is_bounded is the negation of is_empty (C60_exact_iff).",
 "C61": "enclose exact for Solid histories; enclose and closure lose no point and never panic for all; closure adds points (C61_counterexample). The points of closure (C61_closure_formula) and when they are those of enclose (C61_exact_iff), on union-built selections. For any history enclose is right exactly if at most one interval is reported or the first and the last have points (C61_enclose_iff). The points of closure for any history: C61_closure_any; they are those of enclose exactly if the infimum and supremum are the selection's own bounds (C61_closure_any_iff). The points of enclose for any history: C61_enclose_any.",
 "C65": "is_adjacent_to exact for intervals that contain a point or are Empty; into_non_empty right exactly for intervals other than open(l, succ l) (C65_exact_iff, C65_counterexample). Exactly when is_adjacent_to is right: C65_adjacent_iff.",
 "C66": "The strings accepted are described exactly (C66_exact_iff): completeness for the integer types and strictness for texts of bounded intervals hold; the parser accepts junk after an infinity sign and after the empty sign (C66_counterexample).",
 "C67": "Interval, tree and selection interval iterators proved for all call sequences; selection point iteration forward for Solid, all calls for Solid and Carved histories; a mixed sequence resumes after None (C67_counterexample). For any history whose complement lists no single point: C67_points_any. Forward point iteration for any history, C67_forward_any; mixed calls for any history without pinholes, C67_mixed_any. With two pinholes debug builds resume after None too (C67_debug_counterexample). Exact for types without infinite descending sequences: mixed calls are fused exactly without pinholes, and with one some calls panic in every build (C67_exact_iff).",
 "C68": "Forward for all reachable trees and selections; mixed calls if no single point is missing between neighbours; otherwise mixed calls yield Empty or panic (C68_counterexample). Exact: C68_exact_iff (trees), C68_selection_iff (union-built selections). For selections of any history exactly if the complement lists no single point: C68_selection_any. Some calls panic in every build exactly with a pinhole, otherwise none does: C68_panic_iff, C68_selection_panic_iff.",
 "C69": "Proved for programs without intersect_in_place whose minus only takes away unions of intervals and points, and for every query but iteration from the back; more generally for programs of all operations in which the operands of each minus and intersect_in_place meet stated conditions, and for iteration from the back without pinholes (C69_careful_partial); the rest can panic (C69_counterexample, C100).",
 "C70": "Everything a debug build computes a release build computes too; a release build goes on with a broken tree where a debug build stops (C70_release_goes_on).",
 "C72": "union (up to order), complement and intersect agree for all intervals; minus agrees exactly unless a point that is an excluded end of the first interval is taken away (C72_minus_partial is an equivalence, C72_counterexample).",
 "C73": "Equivalences. For selections the histories are unions of intervals and points; point iteration over types without infinite descending sequences. C73_pinhole* relate these values to what the complement of the selection lists. For selections of any history: C73_intervals_any in both builds, C73_points_any in debug builds; in release builds lost and invented items can cancel out (example beside it).",
 "C74": "The properties C54-C57, C59, C60 without exception, on union-built selections.",
 "C75": "C50 without exception, for any number of removals from a selection that lacks no single value. From a selection of any history: C75_removals_any, C75_exact_any.",
 "C76": "What C11 and C61 leave open for arbitrary argument order holds for sorted arguments.",
 "C77": "The exact extent of the failures of C24, C30-C32.",
 "C78": "C37 as an equivalence.",
 "C79": "C41 as an equivalence; dense orders without ends, where intervals and point sets correspond.",
 "C80": "C38 as an equivalence; dense orders without ends.",
 "C81": "The exact alternative to intersect and minus. When it gives the same selection as the calls it stands for, exactly: C81_intersect_same_iff, C81_minus_same_iff, C81_remove_same_iff.",
 "C82": "The part of C69 that holds.",
 "C83": "Simulation between the two iterator states; for every value, even corrupt trees.",
 "C84": "Proved for all values, trees and selections of the stated histories; which data a tree reads back from is described by C84_tree_only, what is read from any list of tines by C84_any_data.",
 "C85": "False (C85_counterexample): intervals are not normalized on reading, trees not checked, and a point at infinity panics. Exactly which data gives proper intervals (C85_interval_iff) trees (C85_tree_iff) and selections (C85_selection_iff); exactly which data makes reading panic (C85_panic_iff; none without points at infinity, C85_no_panic_partial).",
 "C63": "as_mut: C63_as_mut.",
 "C86": "C51 as an equivalence, on union-built selections.",
 "C87": "C52 as an equivalence, on union-built selections.",
 "C88": "C50 and C53 as equivalences, on union-built selections.",
 "C89": "C42 as an equivalence; dense orders without ends.",
 "C90": "C11 as an equivalence.",
 "C91": "C66 as an equivalence.",
 "C92": "Model/BoundPartial repeats the four functions for an arbitrary partial_cmp; C92_total ties them to the ones of C01. C92_exact_iff: right exactly if comparable or the second half-line contains the first (unions) / is contained in it (intersections).",
 "C93": "Built (Spec) counts all operations in debug builds, also after a corrupting one. The complement is needed: C93_complement_needed has a minus that leaves a corrupt selection over which iteration does not panic.",
 "C94": "Made (Spec) has the three operations. Via Selection.reachable_iff: the proper trees with no bound at an end of the type that an infinite bound would do for are exactly the trees of selections.",
 "C95": "Ascending lists are realized by explicit trees (exists_tree, reachable_iff). Lists with gaps are determined by their union.",
 "C96": "Counted on the tree: tines that are not upper bounds. Bounds on intersect_in_place under the condition of C38, on minus if the right operand has no single points.",
 "C97": "False for intersect_in_place: C97_counterexample. Exactly characterised: the value left is proper iff the operand covers neither the inner side of the lower end nor that of the upper end (C97_intersect_in_place_partial, C97_selection_partial); the other operations never panic, and a panic in the iterator given to extend leaves what extend with the items before it makes (C97_extend). Model.Unwind keeps the state at every possible panic; C97_same_model ties it to the model of the other properties.",
 "C98": "The full equivalence, for all trees and intervals on every linear order.",
 "C99": "The equivalences, for all implementations of Finite on all linear orders.",
 "C100": "Exact conditions (iff) for returning, in both builds, and the shape of every wrong result of a debug build; union-built selections in terms of the values they contain, selections of any history in terms of the intervals kept.",
 "C101": "Both directions, for all programs: program_iff for a program with all its intermediate results, step for the last step.",
 "C102": "same_points and filtered for selections of any history; canonical_iff and fixed_iff exact; compare and points under the condition canonical_iff shows necessary.",
 "C103": "All call sequences; the hypotheses (interval not of the open-neighbours kind of C77, listed intervals with points, no pinhole for mixed calls) are those shown necessary by C32, C57 and C73.",
 "C104": "Prefix freedom for all values. Lookup by points is false for single values as intervals and for selections cut in two (C104_counterexample); proved for intervals of two points or more, union-built selections, and trees over dense orders. What is found, exactly: C104_lookup_interval_iff, C104_lookup_tree_iff, C104_lookup_selection_iff (any history).",
 "C105": "All pairs of intervals; the exceptions for neighbours are exact (union_iff, intersect). The bounds infimum and supremum and closure, in which the types differ for every interval, are C59 and C61.",
 "C106": "No hypothesis on the tree. The loops are stated by a relation without fuel (SpecLoop.lean), which an endless loop would not satisfy; the fuelled functions of the model are shown to be exactly its solutions.",
 "C107": "Laws as all consequences of the algebra of sets (SetExpr.Follows), in both directions; equality of any two reachable values is decided by union, complement and is_full, which supplements C55.",
 "C108": "Commutation with every order embedding for all functions of Bound, RawInterval, Tine, TineTree on arbitrary (also corrupt) trees, panics included; for Interval and Selection under order isomorphisms of lawful types, with a witness that widening does not commute.",
 "C109": "Mirror symmetry under every strictly decreasing function: all of RawInterval and Interval, and all tree and selection operations except minus (sufficient condition, counterexample by decide), intersect and backward iteration (exact conditions, counterexamples by decide). minus of selections with a union-built right operand is covered for all reachable left operands. Other right operands: C109_selection_minus_any_partial.",
 "C110": "Well formed RawIntervals are shown to be a Lattice in Mathlib's sense, from which every law (with hypotheses) transfers by evaluation of expressions. For Interval the laws hold exactly for values that are their own intersection; counterexamples for the others by decide.",
 "C111": "Union: idempotent as equality. minus_in_place and minus: exact conditions, second call always gives the difference. intersect_in_place and intersect: exact conditions for the second call after a right first call. Points in a right operand of minus are covered for selections (C111_selection_minus_iff, exact), for trees over any order by minus_in_place only. Counterexamples by decide.",
 "C112": "Exact results of every binary operation of a value with itself; counterexamples by decide for the naive claims.",
 "C113": "Lists of intervals, in order, for every operation; where the operation is not right in general the theorem is an equivalence with the condition under which it is.",
 "C114": "Lists of intervals for trees of any history; for selections made by unions the points of the listed intervals, in order.",
 "C115": "Intervals: no assumption on the tree at all. Order: every tree that operations returned or left behind by a panic, each in either build kind.",
 "C116": "Exact conditions for both orders, for trees, selections (built by unions, and after any program of C154) and single intervals; the naive claim is refuted by decide.",
 "C117": "Induction over the call sequence with a bound on what each step can add; the bound of two values per removal is attained in the example.",
 "C118": "minus, minus_in_place and closure: selections built by unions, with the exact conditions for any history (C118_minus_left_iff, _selection_iff, right_any_iff; minus by a selection built by unions); enclose: smaller selection Solid. Each restriction has a counterexample. For any history enclose and closure keep the order exactly as their bounds do (C118_enclose_iff, C118_closure_iff). minus by a selection of any history: C118_minus_left_any, C118_minus_right_any.",
 "C119": "Exact conditions for exchanging two steps, for trees and selections; removals from a selection commute always, lists of them by induction over the permutation. Trees: counterexamples by decide.",
 "C120": "Proved for all histories of additions, removals and complements; equivalence for any history. What does depend on the kept tree: C120_counterexample.",
 "C121": "Removal by complement and union: proved for all call sequences. Removal by minus_in_place: false in general (C121_counterexample, a number in use handed out again), exact condition per take (C121_take_iff), and right while nothing is given back (C121_take_only). Used like a stack over one interval it is right (C121_stack), over a pool with a gap it is not (C121_stack_counterexample). Exactly when it goes wrong, by what happened to the numbers: C121_exact.",
 "C122": "Equality is contextual equivalence, for any history; with the explicit tests that tell unequal values apart. Selections: types of at least three values, and false for fewer (C122_two_values, C122_two_values_counterexample).",
 "C123": "Proved for all executions. (Replicas that apply removals by minus_in_place as they arrive need not agree: C119.)",
 "C124": "Proved; a complete description of the values after any such history in terms of sets.",
 "C125": "Exact for the three ways of asking: C125_intervals (right; C125_intervals_any for any history and any intervals), C125_minus (refuses adjoining requests too; any program of C154: C125_minus_any, exact, and C125_minus_safe), C125_intersects_partial (compares with the first run only; C125_counterexample, C125_booked_again); in the first two no time is booked twice (C125_no_double_booking); with cancellations exact up to the first wrong one (C125_cancel, C125_cancel_wrong, C125_cancel_counterexample), right for slots of two values or more (C125_cancel_slots).",
 "C126": "Proved for every sequence (C126_steps, C126_at_once, C126_values) and for the listed intervals of union-built operands (C126_listed_partial); false for operands left by complement (C126_counterexample); for an operand of any history that lists no interval without a value it is true exactly if collecting the listed intervals gives back an equal selection (C126_listed_iff). For each state exactly: C126_removals_iff, C126_additions_iff, C126_minus_iff, C126_union_iff.",
 "C127": "Exact answers proved for union-built selections (C127_union, C127_complement, C127_intervals; C127_minus and C127_overlaps with the condition under which they are right) and for intervals (C127_interval). Not right: intersects (C127_intersects_partial, C127_intersects_counterexample; exactly what it tells: C127_intersects_iff), and other histories (C127_history_counterexample, C127_intervals_counterexample). Any programs, exactly: C127_union_any, C127_complement_any, C127_minus_any.",
 "C128": "Right interval by interval (C128_intervals); exact condition for the ways by minus, union and complement (C128_minus, C128_union, C128_complements). Not right: intersects (C128_intersects_partial, C128_counterexample); what it tells exactly is C128_intersects_iff. Any programs, exactly: C128_minus_any, C128_union_any, C128_complements_any.",
 "C129": "Two ways are right (C129_intervals, C129_complements); what the others give is told exactly (C129_minus, C129_intersect, C129_from_intersect).",
 "C130": "The exchange by complements is right (C130_diff_complements, C130_patch_complements, C130_follow); what the others give is told exactly (C130_diff, C130_patch, C130_patch_iff, C130_patch_right_lists, C130_put_first). For copies of any history: C130_patch_any, C130_put_first_any, C130_take_first_any, C130_exact_any.",
 "C131": "The search is right (C131_first_fit); keeping the free numbers by complements (C131_by_complement, C131_in_use) and keeping the numbers in use (C131_used) are right; taking out in place is right for wide blocks (C131_wide), else not (C131_counterexample, C131_used_counterexample); exactly up to the first block that cuts (C131_in_place, C131_in_place_wrong), always for whole pages (C131_in_place_pages).",
 "C132": "What a right receiver passes on (C132_in_order); keeping all and taking out by complements are right (C132_all, C132_by_complement); taking out in place is right if the value due next is never missing alone (C132_in_place), and exactly if each such value behind what has just been passed on comes next (C132_in_place_iff), else not (C132_counterexample).",
 "C133": "The exact listing of every reachable tree (C133_tree_debug, C133_tree_release), when it panics (C133_tree_panic, C133_panic), of selections in terms of their runs (C133_debug for selections built by unions, C133_any for any history in which every interval listed has a value), soundness for any history (C133_sound, C133_tree_sublist) and what goes wrong in release builds (C133_counterexample).",
 "C134": "Every call of next_back for selections built by unions (C134_debug) and of any history (C134_any), with the point at which the assertion fails; both builds if all groups are odd (C134_odd); for every selection and build in terms of the interval listing (C134_turns, C134_front from the front), hence always in release builds (C134_release); C134_counterexample and C134_release_counterexample by decide.",
 "C135": "By complements right for any history (C135_complements), with the laws as equalities (C135_laws) and for sequences (C135_toggles); by minus the exact result and condition (C135_minus, C135_minus_iff); single values: exact for one (C135_click_iff), exact for sequences after any right in-place edits of the empty selection (C135_clicks_exact, C135_clicks_wrong), right for values spaced otherwise than by two (C135_clicks_spaced), sufficient from any edited one (C135_clicks); counterexamples by decide.",
 "C136": "Three exact ways each (C136_within, C136_apart); minus under the condition of C42 (C136_minus), intersect exactly (C136_intersect); C136_counterexample by decide over the rationals.",
 "C137": "Against an insertion sort and a right-to-left joining of neighbours written independently (SpecSort.lean): C137_sorted, C137_descending (iff), C137_ranges, C137_equal, C137_append.",
 "C138": "C138_intervals, C138_free for any history; C138_values and C138_minus (exact, with C138_minus_iff) for Solid histories; C138_intersect gives the exact answer of the way by intersect for union-built selections, C138_intersect_iff when it is right; C138_counterexample by decide.",
 "C139": "C139_round_trip and C139_integers; C139_any_order, C139_together, C139_injective, C139_any_text.",
 "C140": "C140_values (iff), C140_pair (result for every pair of numerals, overflow included), C140_only (converse).",
 "C141": "C141_longest, C141_unsigned, C141_gap; wrong with sizes that overflow (C141_counterexample).",
 "C142": "C142_complements, C142_complements_empty, C142_intervals (C142_intervals_any for intervals without values), C142_depth; the complements leave gaps that is_empty sees (C142_counterexample).",
 "C143": "C143_keep, C143_drop (exact), C143_close for any condition; C143_long, C143_short by size; values for any history C143_keep_any, C143_close_any; C143_counterexample, C143_any_counterexample by decide.",
 "C144": "C144_pad, C144_trim, C144_shift (exact); what release builds do on overflow: C144_counterexample by decide. For any history, with the exact conditions: C144_pad_any, C144_trim_any, C144_shift_any, C144_any_counterexample.",
 "C145": "C145_table and C145_size for the table of pairs; C145_layers for one selection per value by complements; C145_layers_in_place says what minus_in_place can get wrong, C145_layers_counterexample (by decide) that it does, and C145_layers_in_place_exact exactly when.",
 "C146": "C146_pieces_any (exact, any intervals), C146_uniform_any, C146_count_any; the same for intervals that have a value or report empty: C146_pieces, C146_uniform, C146_count; what the exception is by decide (C146_counterexample).",
 "C147": "C147_count, C147_rank, C147_pick; the condition is exact (C147_overflow). For any history: C147_rank_any, C147_total_any, and exactly what counting without cutting off gives (C147_count_any, C147_count_counterexample).",
 "C148": "C148_touched, C148_filled, C148_round_out, C148_round_in; only such f (C148_exact), integers (C148_integers); for any history the exact condition is C148_any_iff, with C148_counterexample.",
 "C149": "C149_partitioned, C149_lookup for any history; C149_nearest for selections edited in place, with C149_nearest_counterexample for others.",
 "C150": "C150_sweep, C150_same: exact and canonical for any history.",
 "C151": "C151_touch (also against the collected selection), C151_overlap and C151_overlap_iff (exact); any intervals: C151_with_values (exact), C151_any; intervals without values that are kept: C151_counterexample, C151_any_counterexample.",
 "C152": "C152_pair, C152_option, C152_either, C152_reverse, C152_array_iff (exact), C152_pair_contains (with uniqueness by C99_unique); mistakes by decide (C152_counterexample).",
 "C153": "C153_within, C153_gap, C153_dependent, C153_clamped_iff (exact), C153_contains (with uniqueness by C99_unique); the unchecked wrapper by decide (C153_counterexample).",
 "C154": "C154_values, C154_equal, C154_empty_full, C154_intervals, C154_right_iff (exact), C154_minus_iff (exact), C154_flags, C154_every, C154_count, C154_versions. The statement that every program has its values is false because of the holes (C154_right_iff, with an example), as recorded for C50-C52.",
 "C155": "By complements always right (C155_by_complement); by minus_in_place exactly as said (C155_exact), with counterexamples to the plain claim (C155_counterexample) and to the condition if drops go back (C155_back_counterexample).",
 "C156": "Exactly as said (C156_exact): the first bridged free is the first wrong one; the exact values after any calls: C156_every; always right with pages (C156_paged) and by complements (C156_by_complement); the plain claim, that the selection always is what was written and not freed since, is false (C156_counterexample).",
 "C157": "Exactly as said (C157_every); right with pages (C157_paged) and as long as nothing is freed (C157_no_free); the plain claim, that the selection always is what is not in use, is false (C157_counterexample)."
}
