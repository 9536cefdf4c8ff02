{
 "claims": [
  {
   "property": "C01",
   "status": "proved",
   "theorems": [
    "NI.C01_least_union",
    "NI.C01_greatest_intersect",
    "NI.C01_greatest_union",
    "NI.C01_least_intersect",
    "NI.C01_selects"
   ],
   "note": ""
  },
  {
   "property": "C02",
   "status": "proved",
   "theorems": [
    "NI.C02_contains",
    "NI.C02_new",
    "NI.C02_constructors",
    "NI.C02_bounds"
   ],
   "note": ""
  },
  {
   "property": "C03",
   "status": "proved",
   "theorems": [
    "NI.C03_intersect",
    "NI.C03_wf",
    "NI.C03_algebra"
   ],
   "note": ""
  },
  {
   "property": "C04",
   "status": "proved",
   "theorems": [
    "NI.C04_complement",
    "NI.C04_shape"
   ],
   "note": ""
  },
  {
   "property": "C05",
   "status": "proved",
   "theorems": [
    "NI.C05_union",
    "NI.C05_shape",
    "NI.C05_two_needed"
   ],
   "note": ""
  },
  {
   "property": "C06",
   "status": "proved",
   "theorems": [
    "NI.C06_minus",
    "NI.C06_shape"
   ],
   "note": ""
  },
  {
   "property": "C07",
   "status": "proved",
   "theorems": [
    "NI.C07_encloses",
    "NI.C07_smallest",
    "NI.C07_smallest_dense"
   ],
   "note": ""
  },
  {
   "property": "C08",
   "status": "proved",
   "theorems": [
    "NI.C08_is_empty",
    "NI.C08_intersects",
    "NI.C08_symm",
    "NI.C08_adjacent"
   ],
   "note": ""
  },
  {
   "property": "C09",
   "status": "proved",
   "theorems": [
    "NI.C09_closure",
    "NI.C09_smallest"
   ],
   "note": ""
  },
  {
   "property": "C10",
   "status": "proved",
   "theorems": [
    "NI.C10_intersect_all"
   ],
   "note": ""
  },
  {
   "property": "C11",
   "status": "partial",
   "theorems": [
    "NI.C11_union_all_partial",
    "NI.C11_counterexample",
    "NI.C11_ascending_partial",
    "NI.C11_two",
    "NI.C11_exact_iff"
   ],
   "note": "Points and well-formedness proved for all arguments; for arguments in ascending order the result is the canonical interval list of the collected tree (C11_ascending_partial), and two arguments are handled as by union (C11_two); disjointness is false in other orders (C11_counterexample). Exactly when the result is disjoint: C11_exact_iff."
  },
  {
   "property": "C12",
   "status": "partial",
   "theorems": [
    "NI.C12_always_full",
    "NI.C12_enclose_all_partial",
    "NI.C12_counterexample",
    "NI.C12_exact_iff"
   ],
   "note": "Enclosure proved; minimality is false because enclose_all always returns Full (C12_always_full, C12_counterexample); it holds exactly if the arguments reach as low and as high as any point (C12_exact_iff)."
  },
  {
   "property": "C13",
   "status": "proved",
   "theorems": [
    "NI.C13_round_trip",
    "NI.C13_integers",
    "NI.C13_injective"
   ],
   "note": ""
  },
  {
   "property": "C14",
   "status": "proved",
   "theorems": [
    "NI.C14_total",
    "NI.C14_accepts",
    "NI.C14_wf",
    "NI.C14_meaning",
    "NI.C14_no_comma",
    "NI.C14_value_error"
   ],
   "note": ""
  },
  {
   "property": "C15",
   "status": "proved",
   "theorems": [
    "NI.C15_normalize_pts"
   ],
   "note": ""
  },
  {
   "property": "C16",
   "status": "proved",
   "theorems": [
    "NI.C16_normal_form"
   ],
   "note": ""
  },
  {
   "property": "C17",
   "status": "partial",
   "theorems": [
    "NI.C17_canonical_partial",
    "NI.C17_counterexample",
    "NI.C17_exact_iff"
   ],
   "note": "Proved for intervals with at least two points; false for those with one or none (C17_counterexample). Exactly when equal point sets give equal normal forms: C17_exact_iff."
  },
  {
   "property": "C18",
   "status": "partial",
   "theorems": [
    "NI.C18_denormalize_pts_partial",
    "NI.C18_denormalize_normalized",
    "NI.C18_counterexample",
    "NI.C18_loss",
    "NI.C18_exact_iff"
   ],
   "note": "Proved for every variant except To and From, hence for every normalized interval; false for To and From (C18_counterexample). Exact: C18_exact_iff."
  },
  {
   "property": "C19",
   "status": "proved",
   "theorems": [
    "NI.C19_round_trip"
   ],
   "note": ""
  },
  {
   "property": "C20",
   "status": "proved",
   "theorems": [
    "NI.C20_no_overflow",
    "NI.C20_lawful",
    "NI.C20_builtin",
    "NI.C20_ranges"
   ],
   "note": ""
  },
  {
   "property": "C21",
   "status": "proved",
   "theorems": [
    "NI.C21_new",
    "NI.C21_bounded",
    "NI.C21_unbounded"
   ],
   "note": ""
  },
  {
   "property": "C22",
   "status": "partial",
   "theorems": [
    "NI.C22_ranges_partial",
    "NI.C22_counterexample",
    "NI.C22_exact_iff"
   ],
   "note": "Proved except for empty ranges a..a, for which it is false (C22_counterexample). Exact: C22_exact_iff."
  },
  {
   "property": "C23",
   "status": "proved",
   "theorems": [
    "NI.C23_normal_form",
    "NI.C23_exact"
   ],
   "note": ""
  },
  {
   "property": "C24",
   "status": "partial",
   "theorems": [
    "NI.C24_is_empty_partial",
    "NI.C24_real",
    "NI.C24_counterexample",
    "NI.C24_exact_iff"
   ],
   "note": "Right exactly for intervals other than open(l, succ l) (C24_exact_iff); false for those (C24_counterexample)."
  },
  {
   "property": "C25",
   "status": "partial",
   "theorems": [
    "NI.C25_degenerate_partial",
    "NI.C25_counterexample",
    "NI.C25_exact_iff",
    "NI.C25_constructors",
    "NI.C25_count"
   ],
   "note": "One direction each for all intervals; both for intervals made by closed and for intersections (C25_count); what the predicates report for each constructor is C25_constructors; the converses are false (C25_counterexample). Exactly when each predicate is right: C25_exact_iff."
  },
  {
   "property": "C26",
   "status": "partial",
   "theorems": [
    "NI.C26_equality_partial",
    "NI.C26_counterexample",
    "NI.C26_exact_iff",
    "NI.C26_count"
   ],
   "note": "Proved for intervals with at least two points, for closed(..) and for intersections (C26_count); otherwise false (C26_counterexample). What equality does depend on: C26_exact_iff."
  },
  {
   "property": "C27",
   "status": "proved",
   "theorems": [
    "NI.C27_set_operations"
   ],
   "note": ""
  },
  {
   "property": "C28",
   "status": "partial",
   "theorems": [
    "NI.C28_union_partial",
    "NI.C28_counterexample",
    "NI.C28_exact_iff"
   ],
   "note": "Right exactly unless the arguments are open(p, q) and open(q, r) with successive neighbours p, q, r (C28_exact_iff); false for those (C28_counterexample)."
  },
  {
   "property": "C29",
   "status": "proved",
   "theorems": [
    "NI.C29_intersects"
   ],
   "note": ""
  },
  {
   "property": "C30",
   "status": "partial",
   "theorems": [
    "NI.C30_enclose_partial",
    "NI.C30_counterexample",
    "NI.C30_exact_iff"
   ],
   "note": "Enclosure proved; minimality proved for arguments which contain a point or report empty, false otherwise (C30_counterexample). Exactly when minimal: C30_exact_iff."
  },
  {
   "property": "C31",
   "status": "partial",
   "theorems": [
    "NI.C31_extrema_partial",
    "NI.C31_counterexample",
    "NI.C31_exact_iff"
   ],
   "note": "Right exactly for intervals other than open(l, succ l) (C31_exact_iff); false for those (C31_counterexample)."
  },
  {
   "property": "C32",
   "status": "partial",
   "theorems": [
    "NI.C32_iteration_partial",
    "NI.C32_counterexample",
    "NI.C32_exact_iff"
   ],
   "note": "Right for every call sequence exactly for intervals other than open(l, succ l) (C32_exact_iff); false for those (C32_counterexample)."
  },
  {
   "property": "C33",
   "status": "partial",
   "theorems": [
    "NI.C33_size_partial",
    "NI.C33_counterexample",
    "NI.C33_release",
    "NI.C33_exact_iff"
   ],
   "note": "Proved whenever the difference is representable, always so for unsigned types; false otherwise (C33_counterexample). Exact: C33_exact_iff. Release builds wrap instead of panicking: C33_release."
  },
  {
   "property": "C34",
   "status": "proved",
   "theorems": [
    "NI.C34_cmp",
    "NI.C34_sorted"
   ],
   "note": ""
  },
  {
   "property": "C35",
   "status": "proved",
   "theorems": [
    "NI.C35_from_raw",
    "NI.C35_contains_total"
   ],
   "note": ""
  },
  {
   "property": "C36",
   "status": "proved",
   "theorems": [
    "NI.C36_union_in_place"
   ],
   "note": ""
  },
  {
   "property": "C37",
   "status": "partial",
   "theorems": [
    "NI.C37_exact_iff",
    "NI.C37_minus_in_place_partial",
    "NI.C37_minus_proper_exact",
    "NI.C37_counterexample"
   ],
   "note": "Proved, with no panic, unless a bound of the removed interval is an excluded point of the tree (C37_minus_in_place_partial); the exact result for all two-ended intervals is C37_minus_proper_exact; the property is false otherwise (C37_counterexample). C37_exact_iff: the safe cases are exactly the ones that work."
  },
  {
   "property": "C38",
   "status": "partial",
   "theorems": [
    "NI.C38_every_order_iff",
    "NI.C38_cut_clean_partial",
    "NI.C38_exact_iff",
    "NI.C38_intersect_in_place_partial",
    "NI.C38_counterexample"
   ],
   "note": "Right whenever the ends of the interval are placed as CutClean describes (any order); on dense unbounded orders exactly then (C38_exact_iff), and on every order exactly then or when a tree away from an interval without points is replaced by that interval (C38_every_order_iff); also proved when both ends lie inside tree intervals or the interval is Empty/Full/a point. False, or panicking, otherwise (C38_counterexample). With two included ends that are isolated points of the tree, release builds are right while debug builds panic. Exactly when it panics: C100."
  },
  {
   "property": "C39",
   "status": "proved",
   "theorems": [
    "NI.C39_complement"
   ],
   "note": ""
  },
  {
   "property": "C40",
   "status": "proved",
   "theorems": [
    "NI.C40_union",
    "NI.C40_union_laws"
   ],
   "note": ""
  },
  {
   "property": "C41",
   "status": "partial",
   "theorems": [
    "NI.C41_lock_step_partial",
    "NI.C41_exact_iff",
    "NI.C41_intersect_subset_partial",
    "NI.C41_intersect_single_partial",
    "NI.C41_counterexample",
    "NI.C41_formula",
    "NI.C41_exact_iff_together"
   ],
   "note": "No panic and result contained in both trees proved in general; on every order the result is described exactly (C41_formula) and is right if and only if all intervals that share a point come together in the walk (C41_exact_iff_together); lock step suffices (C41_lock_step_partial) and is necessary on dense unbounded orders (C41_exact_iff); false in general (C41_counterexample)."
  },
  {
   "property": "C42",
   "status": "partial",
   "theorems": [
    "NI.C42_formula",
    "NI.C42_exact_iff",
    "NI.C42_dense_iff",
    "NI.C42_every_iff",
    "NI.C42_minus_partial",
    "NI.C42_counterexample"
   ],
   "note": "Proved when each removed interval avoids the excluded points of the left tree, and false otherwise (C42_counterexample): the result is described exactly if single points are removed safely (C42_formula), it is then right if and only if all removals are safe (C42_exact_iff), and on dense unbounded orders this needs no condition (C42_dense_iff). On every order, with no condition: C42_every_iff says exactly when the result is right and a proper tree (removals that break the tree and are put right by the next one included)."
  },
  {
   "property": "C43",
   "status": "proved",
   "theorems": [
    "NI.C43_collect"
   ],
   "note": ""
  },
  {
   "property": "C44",
   "status": "proved",
   "theorems": [
    "NI.C44_eq_iff",
    "NI.C44_empty_full"
   ],
   "note": ""
  },
  {
   "property": "C45",
   "status": "proved",
   "theorems": [
    "NI.C45_iteration",
    "NI.C45_maximal"
   ],
   "note": ""
  },
  {
   "property": "C46",
   "status": "partial",
   "theorems": [
    "NI.C46_lost_counterexample",
    "NI.C46_reverse_partial",
    "NI.C46_counterexample"
   ],
   "note": "Proved for trees without excluded single points; false with one (C46_counterexample); with two next to each other an interval is lost silently (C46_lost_counterexample). C73 is the equivalence."
  },
  {
   "property": "C47",
   "status": "proved",
   "theorems": [
    "NI.C47_enclose",
    "NI.C47_bounds",
    "NI.C47_minimal"
   ],
   "note": ""
  },
  {
   "property": "C48",
   "status": "proved",
   "theorems": [
    "NI.C48_contains_total",
    "NI.C48_start",
    "NI.C48_union_in_place",
    "NI.C48_extend",
    "NI.C48_from_intervals",
    "NI.C48_from_points"
   ],
   "note": ""
  },
  {
   "property": "C49",
   "status": "proved",
   "theorems": [
    "NI.C49_expressions"
   ],
   "note": ""
  },
  {
   "property": "C50",
   "status": "partial",
   "theorems": [
    "NI.C50_formula_any",
    "NI.C50_exact_any",
    "NI.C50_removes_partial",
    "NI.C50_formula_partial",
    "NI.C50_carved_partial",
    "NI.C50_counterexample",
    "NI.C50_exact_iff"
   ],
   "note": "No panic, every point of i removed and no other point lost, for all histories; the exact result set is C50_formula_partial; exact for carved selections; false when a single missing value touches the removed interval (C50_counterexample). Exactly when right on union-built selections: C50_exact_iff. For selections of any history, in terms of what the complement lists: C50_formula_any, C50_exact_any."
  },
  {
   "property": "C51",
   "status": "partial",
   "theorems": [
    "NI.C51_exact_iff",
    "NI.C51_exact_any",
    "NI.C51_intersect_in_place_partial",
    "NI.C51_trivial_partial",
    "NI.C51_counterexample",
    "NI.C51_every_any"
   ],
   "note": "Exact when the selection reaches both ends of the interval, or crosses one and stays clear of the other; otherwise wrong points, a corrupt tree or a panic (C51_counterexample). Exactly when right on union-built selections: C51_exact_iff. For selections of any history, in terms of the intervals kept in the tree: C51_exact_any; for all intervals: C51_every_any. Exactly when it panics: C100."
  },
  {
   "property": "C52",
   "status": "partial",
   "theorems": [
    "NI.C52_lock_step_partial",
    "NI.C52_complements_iff",
    "NI.C52_subset_partial",
    "NI.C52_first_partial",
    "NI.C52_intervals_partial",
    "NI.C52_counterexample",
    "NI.C52_intersects_counterexample",
    "NI.C52_formula",
    "NI.C52_exact_iff",
    "NI.C52_formula_any",
    "NI.C52_exact_any"
   ],
   "note": "No panic and result contained in both proved for all histories; for union-built selections the results of intersect and intersects are described exactly (C52_formula) and intersect is right if and only if all intervals that share a point come together in the walk (C52_exact_iff); for any histories the same in terms of the intervals kept in the selections (C52_formula_any, C52_exact_any); for complements exactly in lock step (C52_complements_iff); false otherwise (C52_counterexample, C52_intersects_counterexample)."
  },
  {
   "property": "C53",
   "status": "partial",
   "theorems": [
    "NI.C53_formula_partial",
    "NI.C53_complement_partial",
    "NI.C53_every_iff",
    "NI.C53_formula_any",
    "NI.C53_exact_any",
    "NI.C53_removes_partial",
    "NI.C53_carved_partial",
    "NI.C53_counterexample",
    "NI.C53_exact_iff",
    "NI.C53_formula_every",
    "NI.C53_exact_every"
   ],
   "note": "Removal and keeping proved for union-built right sides; exact formula for the result on union-built operands (C53_formula_partial); exact for complements of union-built selections and carved left sides; false otherwise (C53_counterexample). Exactly when right on union-built operands: C53_exact_iff. Left operand of any history: C53_formula_any, C53_exact_any. Both operands of any history: C53_every_iff. The values of the result where the removal is sound, told by single-value edits a caller can try: C53_formula_every, C53_exact_every."
  },
  {
   "property": "C54",
   "status": "partial",
   "theorems": [
    "NI.C54_exact_iff",
    "NI.C54_is_full_iff",
    "NI.C54_sound_partial",
    "NI.C54_is_empty_partial",
    "NI.C54_is_full_partial",
    "NI.C54_counterexample"
   ],
   "note": "One direction for all selections; is_empty exact for Solid histories, is_full exact for Tidy ones; false otherwise (C54_counterexample). For any history: is_empty is right exactly unless there are reported intervals and none has a point (C54_exact_iff), is_full exactly unless all values are reported as several intervals (C54_is_full_iff)."
  },
  {
   "property": "C55",
   "status": "partial",
   "theorems": [
    "NI.C55_union_built_partial",
    "NI.C55_complements_partial",
    "NI.C55_collect_intervals",
    "NI.C55_grouping",
    "NI.C55_collect_points",
    "NI.C55_union_laws",
    "NI.C55_counterexample"
   ],
   "note": "Exact for union-built selections, for their complements, and for collecting intervals or points; false for mixed histories (C55_counterexample). For any history selections compare equal exactly if no changes tell them apart: C122."
  },
  {
   "property": "C56",
   "status": "partial",
   "theorems": [
    "NI.C56_reverse_any",
    "NI.C56_shape",
    "NI.C56_cover_partial",
    "NI.C56_nonempty_partial",
    "NI.C56_separated_partial",
    "NI.C56_maximal_partial",
    "NI.C56_reverse_partial",
    "NI.C56_counterexample"
   ],
   "note": "No panic, order and cover for all histories; non-emptiness for Solid, separation and maximality for Tidy, reverse iteration for Carved; false otherwise (C56_counterexample). C73 gives the exact condition for reverse iteration of union-built selections. C56_shape: for any history each reported interval is [l,u] of its points, or the open interval between two absent neighbours. Reverse iteration is right for any history if the complement lists no single point: C56_reverse_any."
  },
  {
   "property": "C57",
   "status": "partial",
   "theorems": [
    "NI.C57_lost_counterexample",
    "NI.C57_reverse_any",
    "NI.C57_forward_runs",
    "NI.C57_forward_iff",
    "NI.C57_forward_partial",
    "NI.C57_reverse_partial",
    "NI.C57_collect_partial",
    "NI.C57_counterexample",
    "NI.C57_phantom_counterexample"
   ],
   "note": "Forward iteration for Solid histories, reverse for Solid and Carved ones; reverse iteration is wrong or panics on a selection lacking a single value (C57_counterexample). {1,3,5} reversed yields 5 and 1 in every build (C57_lost_counterexample). C73 gives the exact condition. For any history forward iteration is right if all reported intervals have points (C57_forward_runs), and on finite types only then (C57_forward_iff). Reverse for any history without such points: C57_reverse_any."
  },
  {
   "property": "C58",
   "status": "partial",
   "theorems": [
    "NI.C58_drain_any",
    "NI.C58_exact_any",
    "NI.C58_single_partial",
    "NI.C58_drain_partial",
    "NI.C58_counterexample",
    "NI.C58_exact_iff"
   ],
   "note": "True for at most one run; with more runs each point is still yielded once but not in order (C58_drain_partial, C58_counterexample). Exactly when mixed iteration is right: C58_exact_iff. Mixed calls for any history without such points: C58_drain_any. For any history, without such missing values: C58_drain_any, C58_exact_any."
  },
  {
   "property": "C59",
   "status": "partial",
   "theorems": [
    "NI.C59_never",
    "NI.C59_complement",
    "NI.C59_infimum_any",
    "NI.C59_bounds_iff",
    "NI.C59_bounds_partial",
    "NI.C59_infimum_partial",
    "NI.C59_counterexample"
   ],
   "note": "lower_bound/upper_bound proved for Solid histories; infimum/supremum of a union-built selection are one off (C59_infimum_partial, C59_counterexample). Union-built selections: never the least or greatest point (C59_never); on complements right except at the ends of the type (C59_complement). For any history the bounds are right exactly if the first (last) reported interval has a point (C59_bounds_iff). infimum (supremum) of any selection is the value of its lower (upper) bound or the neighbouring value outside: C59_infimum_any."
  },
  {
   "property": "C60",
   "status": "partial",
   "theorems": [
    "NI.C60_exact_iff",
    "NI.C60_sides_partial",
    "NI.C60_is_bounded_partial",
    "NI.C60_counterexample"
   ],
   "note": "Left/right/half bounded proved for all histories; is_bounded is false for the empty selection (C60_counterexample). For any history is_bounded is the negation of is_empty (C60_exact_iff)."
  },
  {
   "property": "C61",
   "status": "partial",
   "theorems": [
    "NI.C61_closure_any",
    "NI.C61_enclose_any",
    "NI.C61_closure_any_iff",
    "NI.C61_enclose_iff",
    "NI.C61_enclose_partial",
    "NI.C61_superset_partial",
    "NI.C61_counterexample",
    "NI.C61_closure_formula",
    "NI.C61_exact_iff"
   ],
   "note": "enclose exact for Solid histories; enclose and closure lose no point and never panic for all; closure adds points (C61_counterexample). The points of closure (C61_closure_formula) and when they are those of enclose (C61_exact_iff), on union-built selections. For any history enclose is right exactly if at most one interval is reported or the first and the last have points (C61_enclose_iff). The points of closure for any history: C61_closure_any; they are those of enclose exactly if the infimum and supremum are the selection's own bounds (C61_closure_any_iff). The points of enclose for any history: C61_enclose_any."
  },
  {
   "property": "C62",
   "status": "proved",
   "theorems": [
    "NI.C62_complement"
   ],
   "note": ""
  },
  {
   "property": "C63",
   "status": "proved",
   "theorems": [
    "NI.C63_map",
    "NI.C63_kind",
    "NI.C63_unwrap",
    "NI.C63_defaults",
    "NI.C63_from",
    "NI.C63_as_mut"
   ],
   "note": "as_mut: C63_as_mut."
  },
  {
   "property": "C64",
   "status": "proved",
   "theorems": [
    "NI.C64_infimum",
    "NI.C64_bounds"
   ],
   "note": ""
  },
  {
   "property": "C65",
   "status": "partial",
   "theorems": [
    "NI.C65_into_non_empty_partial",
    "NI.C65_counterexample",
    "NI.C65_adjacent_partial",
    "NI.C65_default",
    "NI.C65_adjacent_iff",
    "NI.C65_exact_iff"
   ],
   "note": "is_adjacent_to exact for intervals that contain a point or are Empty; into_non_empty right exactly for intervals other than open(l, succ l) (C65_exact_iff, C65_counterexample). Exactly when is_adjacent_to is right: C65_adjacent_iff."
  },
  {
   "property": "C66",
   "status": "partial",
   "theorems": [
    "NI.C66_strict_partial",
    "NI.C66_complete",
    "NI.C66_counterexample",
    "NI.C66_exact_iff"
   ],
   "note": "The strings accepted are described exactly (C66_exact_iff): completeness for the integer types and strictness for texts of bounded intervals hold; the parser accepts junk after an infinity sign and after the empty sign (C66_counterexample)."
  },
  {
   "property": "C67",
   "status": "partial",
   "theorems": [
    "NI.C67_forward_any",
    "NI.C67_mixed_any",
    "NI.C67_debug_counterexample",
    "NI.C67_exact_iff",
    "NI.C67_interval",
    "NI.C67_tree_intervals",
    "NI.C67_selection_intervals",
    "NI.C67_points_partial",
    "NI.C67_counterexample",
    "NI.C67_points_any"
   ],
   "note": "Interval, tree and selection interval iterators proved for all call sequences; selection point iteration forward for Solid, all calls for Solid and Carved histories; a mixed sequence resumes after None (C67_counterexample). For any history whose complement lists no single point: C67_points_any. Forward point iteration for any history, C67_forward_any; mixed calls for any history without pinholes, C67_mixed_any. With two pinholes debug builds resume after None too (C67_debug_counterexample). Exact for types without infinite descending sequences: mixed calls are fused exactly without pinholes, and with one some calls panic in every build (C67_exact_iff)."
  },
  {
   "property": "C68",
   "status": "partial",
   "theorems": [
    "NI.C68_panic_iff",
    "NI.C68_selection_panic_iff",
    "NI.C68_forward",
    "NI.C68_mixed_partial",
    "NI.C68_selection_partial",
    "NI.C68_counterexample",
    "NI.C68_selection_any",
    "NI.C68_exact_iff",
    "NI.C68_selection_iff"
   ],
   "note": "Forward for all reachable trees and selections; mixed calls if no single point is missing between neighbours; otherwise mixed calls yield Empty or panic (C68_counterexample). Exact: C68_exact_iff (trees), C68_selection_iff (union-built selections). For selections of any history exactly if the complement lists no single point: C68_selection_any. Some calls panic in every build exactly with a pinhole, otherwise none does: C68_panic_iff, C68_selection_panic_iff."
  },
  {
   "property": "C69",
   "status": "partial",
   "theorems": [
    "NI.C69_no_panic_partial",
    "NI.C69_counterexample",
    "NI.C69_careful_partial"
   ],
   "note": "Proved for programs without intersect_in_place whose minus only takes away unions of intervals and points, and for every query but iteration from the back; more generally for programs of all operations in which the operands of each minus and intersect_in_place meet stated conditions, and for iteration from the back without pinholes (C69_careful_partial); the rest can panic (C69_counterexample, C100)."
  },
  {
   "property": "C70",
   "status": "proved",
   "theorems": [
    "NI.C70_builds_agree",
    "NI.C70_trees_agree",
    "NI.C70_release_goes_on"
   ],
   "note": "Everything a debug build computes a release build computes too; a release build goes on with a broken tree where a debug build stops (C70_release_goes_on)."
  },
  {
   "property": "C71",
   "status": "proved",
   "theorems": [
    "NI.C71_collect_canonical",
    "NI.C71_intervals_canonical",
    "NI.C71_points_determine"
   ],
   "note": ""
  },
  {
   "property": "C72",
   "status": "partial",
   "theorems": [
    "NI.C72_union",
    "NI.C72_complement",
    "NI.C72_intersect",
    "NI.C72_minus_partial",
    "NI.C72_counterexample"
   ],
   "note": "union (up to order), complement and intersect agree for all intervals; minus agrees exactly unless a point that is an excluded end of the first interval is taken away (C72_minus_partial is an equivalence, C72_counterexample)."
  },
  {
   "property": "C73",
   "status": "proved",
   "theorems": [
    "NI.C73_tree_iff",
    "NI.C73_intervals_iff",
    "NI.C73_points_iff",
    "NI.C73_pinhole_built",
    "NI.C73_pinhole",
    "NI.C73_pinhole_complement",
    "NI.C73_intervals_any",
    "NI.C73_points_any"
   ],
   "note": "Equivalences. For selections the histories are unions of intervals and points; point iteration over types without infinite descending sequences. C73_pinhole* relate these values to what the complement of the selection lists. For selections of any history: C73_intervals_any in both builds, C73_points_any in debug builds; in release builds lost and invented items can cancel out (example beside it)."
  },
  {
   "property": "C74",
   "status": "proved",
   "theorems": [
    "NI.C74_identity",
    "NI.C74_runs",
    "NI.C74_extremes"
   ],
   "note": "The properties C54-C57, C59, C60 without exception, on union-built selections."
  },
  {
   "property": "C75",
   "status": "proved",
   "theorems": [
    "NI.C75_remove",
    "NI.C75_removals_any",
    "NI.C75_exact_any"
   ],
   "note": "C50 without exception, for any number of removals from a selection that lacks no single value. From a selection of any history: C75_removals_any, C75_exact_any."
  },
  {
   "property": "C76",
   "status": "proved",
   "theorems": [
    "NI.C76_union_all"
   ],
   "note": "What C11 and C61 leave open for arbitrary argument order holds for sorted arguments."
  },
  {
   "property": "C77",
   "status": "proved",
   "theorems": [
    "NI.C77_interval",
    "NI.C77_phantom"
   ],
   "note": "The exact extent of the failures of C24, C30-C32."
  },
  {
   "property": "C78",
   "status": "proved",
   "theorems": [
    "NI.C78_minus_iff"
   ],
   "note": "C37 as an equivalence."
  },
  {
   "property": "C79",
   "status": "proved",
   "theorems": [
    "NI.C79_intersect_iff"
   ],
   "note": "C41 as an equivalence; dense orders without ends, where intervals and point sets correspond."
  },
  {
   "property": "C80",
   "status": "proved",
   "theorems": [
    "NI.C80_intersect_in_place_iff"
   ],
   "note": "C38 as an equivalence; dense orders without ends."
  },
  {
   "property": "C81",
   "status": "proved",
   "theorems": [
    "NI.C81_selection",
    "NI.C81_tree",
    "NI.C81_minus_same_iff",
    "NI.C81_remove_same_iff",
    "NI.C81_intersect_same_iff"
   ],
   "note": "The exact alternative to intersect and minus. When it gives the same selection as the calls it stands for, exactly: C81_intersect_same_iff, C81_minus_same_iff, C81_remove_same_iff."
  },
  {
   "property": "C82",
   "status": "proved",
   "theorems": [
    "NI.C82_no_panic"
   ],
   "note": "The part of C69 that holds."
  },
  {
   "property": "C83",
   "status": "proved",
   "theorems": [
    "NI.C83_tree",
    "NI.C83_conversions",
    "NI.C83_intervals",
    "NI.C83_points"
   ],
   "note": "Simulation between the two iterator states; for every value, even corrupt trees."
  },
  {
   "property": "C84",
   "status": "proved",
   "theorems": [
    "NI.C84_values",
    "NI.C84_tree",
    "NI.C84_selection",
    "NI.C84_tree_only",
    "NI.C84_any_tree",
    "NI.C84_any_data",
    "NI.C84_shuffled",
    "NI.C84_any_selection"
   ],
   "note": "Proved for all values, trees and selections of the stated histories; which data a tree reads back from is described by C84_tree_only, what is read from any list of tines by C84_any_data."
  },
  {
   "property": "C85",
   "status": "partial",
   "theorems": [
    "NI.C85_selection_iff",
    "NI.C85_interval_iff",
    "NI.C85_no_panic_partial",
    "NI.C85_tree_iff",
    "NI.C85_counterexample",
    "NI.C85_panic_iff"
   ],
   "note": "False (C85_counterexample): intervals are not normalized on reading, trees not checked, and a point at infinity panics. Exactly which data gives proper intervals (C85_interval_iff) trees (C85_tree_iff) and selections (C85_selection_iff); exactly which data makes reading panic (C85_panic_iff; none without points at infinity, C85_no_panic_partial)."
  },
  {
   "property": "C86",
   "status": "proved",
   "theorems": [
    "NI.C86_intersect_in_place_iff"
   ],
   "note": "C51 as an equivalence, on union-built selections."
  },
  {
   "property": "C87",
   "status": "proved",
   "theorems": [
    "NI.C87_intersect_iff"
   ],
   "note": "C52 as an equivalence, on union-built selections."
  },
  {
   "property": "C88",
   "status": "proved",
   "theorems": [
    "NI.C88_minus_iff"
   ],
   "note": "C50 and C53 as equivalences, on union-built selections."
  },
  {
   "property": "C89",
   "status": "proved",
   "theorems": [
    "NI.C89_minus_iff"
   ],
   "note": "C42 as an equivalence; dense orders without ends."
  },
  {
   "property": "C90",
   "status": "proved",
   "theorems": [
    "NI.C90_union_all_iff"
   ],
   "note": "C11 as an equivalence."
  },
  {
   "property": "C91",
   "status": "proved",
   "theorems": [
    "NI.C91_parse_iff"
   ],
   "note": "C66 as an equivalence."
  },
  {
   "property": "C92",
   "status": "proved",
   "theorems": [
    "NI.C92_total",
    "NI.C92_comparable",
    "NI.C92_incomparable",
    "NI.C92_exact_iff",
    "NI.C92_nan"
   ],
   "note": "Model/BoundPartial repeats the four functions for an arbitrary partial_cmp; C92_total ties them to the ones of C01. C92_exact_iff: right exactly if comparable or the second half-line contains the first (unions) / is contained in it (intersections)."
  },
  {
   "property": "C93",
   "status": "proved",
   "theorems": [
    "NI.C93_tree",
    "NI.C93_tree_includes",
    "NI.C93_selection",
    "NI.C93_selection_includes",
    "NI.C93_complement_needed"
   ],
   "note": "Built (Spec) counts all operations in debug builds, also after a corrupting one. The complement is needed: C93_complement_needed has a minus that leaves a corrupt selection over which iteration does not panic."
  },
  {
   "property": "C94",
   "status": "proved",
   "theorems": [
    "NI.C94_made"
   ],
   "note": "Made (Spec) has the three operations. Via Selection.reachable_iff: the proper trees with no bound at an end of the type that an infinite bound would do for are exactly the trees of selections."
  },
  {
   "property": "C95",
   "status": "proved",
   "theorems": [
    "NI.C95_listed",
    "NI.C95_collected"
   ],
   "note": "Ascending lists are realized by explicit trees (exists_tree, reachable_iff). Lists with gaps are determined by their union."
  },
  {
   "property": "C96",
   "status": "proved",
   "theorems": [
    "NI.C96_tree_union_in_place",
    "NI.C96_tree_union",
    "NI.C96_tree_collect",
    "NI.C96_tree_complement",
    "NI.C96_tree_minus_in_place",
    "NI.C96_tree_minus",
    "NI.C96_tree_intersect",
    "NI.C96_tree_intersect_in_place",
    "NI.C96_union_in_place",
    "NI.C96_union",
    "NI.C96_collect",
    "NI.C96_collect_points",
    "NI.C96_complement",
    "NI.C96_minus_in_place",
    "NI.C96_minus",
    "NI.C96_intersect"
   ],
   "note": "Counted on the tree: tines that are not upper bounds. Bounds on intersect_in_place under the condition of C38, on minus if the right operand has no single points."
  },
  {
   "property": "C97",
   "status": "partial",
   "theorems": [
    "NI.C97_same_model",
    "NI.C97_no_panic",
    "NI.C97_intersect_in_place_partial",
    "NI.C97_noticed",
    "NI.C97_counterexample",
    "NI.C97_selection_same_model",
    "NI.C97_selection_no_panic",
    "NI.C97_extend",
    "NI.C97_selection_partial",
    "NI.C97_selection_counterexample"
   ],
   "note": "False for intersect_in_place: C97_counterexample. Exactly characterised: the value left is proper iff the operand covers neither the inner side of the lower end nor that of the upper end (C97_intersect_in_place_partial, C97_selection_partial); the other operations never panic, and a panic in the iterator given to extend leaves what extend with the items before it makes (C97_extend). Model.Unwind keeps the state at every possible panic; C97_same_model ties it to the model of the other properties."
  },
  {
   "property": "C98",
   "status": "proved",
   "theorems": [
    "NI.C98_intersect_in_place_iff"
   ],
   "note": "The full equivalence, for all trees and intervals on every linear order."
  },
  {
   "property": "C99",
   "status": "proved",
   "theorems": [
    "NI.C99_normalize_iff",
    "NI.C99_denormalize_iff",
    "NI.C99_unique",
    "NI.C99_exists_iff"
   ],
   "note": "The equivalences, for all implementations of Finite on all linear orders."
  },
  {
   "property": "C100",
   "status": "proved",
   "theorems": [
    "NI.C100_returns_iff",
    "NI.C100_debug",
    "NI.C100_selection_iff",
    "NI.C100_selection_clear",
    "NI.C100_selection_any"
   ],
   "note": "Exact conditions (iff) for returning, in both builds, and the shape of every wrong result of a debug build; union-built selections in terms of the values they contain, selections of any history in terms of the intervals kept."
  },
  {
   "property": "C101",
   "status": "proved",
   "theorems": [
    "NI.C101_step",
    "NI.C101_program_iff"
   ],
   "note": "Both directions, for all programs: program_iff for a program with all its intermediate results, step for the last step."
  },
  {
   "property": "C102",
   "status": "proved",
   "theorems": [
    "NI.C102_same_points",
    "NI.C102_canonical_iff",
    "NI.C102_compare",
    "NI.C102_fixed_iff",
    "NI.C102_filtered",
    "NI.C102_points"
   ],
   "note": "same_points and filtered for selections of any history; canonical_iff and fixed_iff exact; compare and points under the condition canonical_iff shows necessary."
  },
  {
   "property": "C103",
   "status": "proved",
   "theorems": [
    "NI.C103_interval",
    "NI.C103_interval_nth",
    "NI.C103_selection",
    "NI.C103_selection_mixed",
    "NI.C103_sum",
    "NI.C103_size"
   ],
   "note": "All call sequences; the hypotheses (interval not of the open-neighbours kind of C77, listed intervals with points, no pinhole for mixed calls) are those shown necessary by C32, C57 and C73."
  },
  {
   "property": "C104",
   "status": "partial",
   "theorems": [
    "NI.C104_raw",
    "NI.C104_interval",
    "NI.C104_tree",
    "NI.C104_selection",
    "NI.C104_lookup_selection_partial",
    "NI.C104_lookup_interval_partial",
    "NI.C104_lookup_tree",
    "NI.C104_counterexample",
    "NI.C104_lookup_tree_iff",
    "NI.C104_lookup_interval_iff",
    "NI.C104_lookup_selection_iff"
   ],
   "note": "Prefix freedom for all values. Lookup by points is false for single values as intervals and for selections cut in two (C104_counterexample); proved for intervals of two points or more, union-built selections, and trees over dense orders. What is found, exactly: C104_lookup_interval_iff, C104_lookup_tree_iff, C104_lookup_selection_iff (any history)."
  },
  {
   "property": "C105",
   "status": "proved",
   "theorems": [
    "NI.C105_list",
    "NI.C105_complement",
    "NI.C105_minus",
    "NI.C105_union",
    "NI.C105_union_iff",
    "NI.C105_intersect",
    "NI.C105_queries",
    "NI.C105_enclose",
    "NI.C105_points"
   ],
   "note": "All pairs of intervals; the exceptions for neighbours are exact (union_iff, intersect). The bounds infimum and supremum and closure, in which the types differ for every interval, are C59 and C61."
  },
  {
   "property": "C106",
   "status": "proved",
   "theorems": [
    "NI.TineTree.C106_interval_calls",
    "NI.TineTree.C106_union",
    "NI.TineTree.C106_minus",
    "NI.TineTree.C106_intervals",
    "NI.TineTree.C106_intervals_back",
    "NI.TineTree.C106_contains",
    "NI.TineTree.C106_intersect",
    "NI.Interval.C106_interval_points",
    "NI.Selection.C106_selection_calls",
    "NI.Selection.C106_selection_intervals",
    "NI.PointIter.C106_selection_points"
   ],
   "note": "No hypothesis on the tree. The loops are stated by a relation without fuel (SpecLoop.lean), which an endless loop would not satisfy; the fuelled functions of the model are shown to be exactly its solutions."
  },
  {
   "property": "C107",
   "status": "proved",
   "theorems": [
    "NI.TineTree.C107_tree",
    "NI.TineTree.C107_tree_iff",
    "NI.TineTree.C107_tree_equal_iff",
    "NI.Selection.C107_selection",
    "NI.Selection.C107_selection_iff",
    "NI.Selection.C107_equal_iff",
    "NI.Selection.C107_within"
   ],
   "note": "Laws as all consequences of the algebra of sets (SetExpr.Follows), in both directions; equality of any two reachable values is decided by union, complement and is_full, which supplements C55."
  },
  {
   "property": "C108",
   "status": "proved",
   "theorems": [
    "NI.C108_bounds",
    "NI.C108_raw_new",
    "NI.C108_raw",
    "NI.C108_raw_all",
    "NI.C108_tree_reads",
    "NI.C108_tree_steps",
    "NI.C108_tree",
    "NI.C108_renames",
    "NI.C108_interval",
    "NI.C108_selection",
    "NI.C108_selection_reads",
    "NI.C108_widening_differs"
   ],
   "note": "Commutation with every order embedding for all functions of Bound, RawInterval, Tine, TineTree on arbitrary (also corrupt) trees, panics included; for Interval and Selection under order isomorphisms of lawful types, with a witness that widening does not commute."
  },
  {
   "property": "C109",
   "status": "partial",
   "theorems": [
    "NI.C109_bounds",
    "NI.C109_raw_new",
    "NI.C109_raw",
    "NI.C109_raw_all",
    "NI.C109_tree_reachable",
    "NI.C109_tree_reads",
    "NI.C109_tree",
    "NI.C109_minus_partial",
    "NI.C109_intersect_partial",
    "NI.C109_intersect_iff",
    "NI.C109_back_iff",
    "NI.C109_minus_counterexample",
    "NI.C109_intersect_counterexample",
    "NI.C109_reflects",
    "NI.C109_interval",
    "NI.C109_selection",
    "NI.C109_selection_reads",
    "NI.C109_selection_minus_partial",
    "NI.C109_selection_minus_any_partial",
    "NI.C109_selection_intersect_iff",
    "NI.C109_selection_back_iff",
    "NI.C109_selection_counterexample"
   ],
   "note": "Mirror symmetry under every strictly decreasing function: all of RawInterval and Interval, and all tree and selection operations except minus (sufficient condition, counterexample by decide), intersect and backward iteration (exact conditions, counterexamples by decide). minus of selections with a union-built right operand is covered for all reachable left operands. Other right operands: C109_selection_minus_any_partial."
  },
  {
   "property": "C110",
   "status": "partial",
   "theorems": [
    "NI.C110_raw",
    "NI.C110_raw_laws",
    "NI.C110_raw_order",
    "NI.C110_raw_inclusion",
    "NI.C110_inclusion_counterexample",
    "NI.C110_not_distributive",
    "NI.C110_intersect_all",
    "NI.C110_interval_partial",
    "NI.C110_interval_iff",
    "NI.C110_interval_laws",
    "NI.C110_interval_inclusion",
    "NI.C110_interval_counterexample"
   ],
   "note": "Well formed RawIntervals are shown to be a Lattice in Mathlib's sense, from which every law (with hypotheses) transfers by evaluation of expressions. For Interval the laws hold exactly for values that are their own intersection; counterexamples for the others by decide."
  },
  {
   "property": "C111",
   "status": "proved",
   "theorems": [
    "NI.C111_selection_minus_iff",
    "NI.C111_union",
    "NI.C111_minus_in_place_iff",
    "NI.C111_minus_point_iff",
    "NI.C111_minus_iff",
    "NI.C111_intersect_in_place_iff",
    "NI.C111_intersect_in_place_simple",
    "NI.C111_intersect_iff",
    "NI.C111_counterexample",
    "NI.C111_selection_union",
    "NI.C111_selection_minus_in_place",
    "NI.C111_selection_minus",
    "NI.C111_selection_cut_iff",
    "NI.C111_selection_counterexample",
    "NI.C111_selection_intersect_iff"
   ],
   "note": "Union: idempotent as equality. minus_in_place and minus: exact conditions, second call always gives the difference. intersect_in_place and intersect: exact conditions for the second call after a right first call. Points in a right operand of minus are covered for selections (C111_selection_minus_iff, exact), for trees over any order by minus_in_place only. Counterexamples by decide."
  },
  {
   "property": "C112",
   "status": "proved",
   "theorems": [
    "NI.C112_minus_any",
    "NI.C112_raw",
    "NI.C112_union",
    "NI.C112_intersect",
    "NI.C112_minus",
    "NI.C112_interval",
    "NI.C112_selection",
    "NI.C112_selection_minus",
    "NI.C112_counterexample"
   ],
   "note": "Exact results of every binary operation of a value with itself; counterexamples by decide for the naive claims."
  },
  {
   "property": "C113",
   "status": "proved",
   "theorems": [
    "NI.C113_union_in_place",
    "NI.C113_minus_in_place_iff",
    "NI.C113_intersect_in_place_iff",
    "NI.C113_intersect_iff",
    "NI.C113_complement",
    "NI.C113_minus_iff",
    "NI.C113_selection_union_in_place",
    "NI.C113_selection_minus_in_place_iff"
   ],
   "note": "Lists of intervals, in order, for every operation; where the operation is not right in general the theorem is an equivalence with the condition under which it is."
  },
  {
   "property": "C114",
   "status": "proved",
   "theorems": [
    "NI.C114_complement",
    "NI.C114_selection_complement"
   ],
   "note": "Lists of intervals for trees of any history; for selections made by unions the points of the listed intervals, in order."
  },
  {
   "property": "C115",
   "status": "proved",
   "theorems": [
    "NI.C115_intervals",
    "NI.C115_sorted",
    "NI.C115_selection",
    "NI.C115_selection_sorted"
   ],
   "note": "Intervals: no assumption on the tree at all. Order: every tree that operations returned or left behind by a panic, each in either build kind."
  },
  {
   "property": "C116",
   "status": "proved",
   "theorems": [
    "NI.C116_add_remove_any",
    "NI.C116_remove_add_any",
    "NI.C116_union_minus_any",
    "NI.C116_minus_union_any",
    "NI.C116_add_remove_iff",
    "NI.C116_add_remove_in_place_iff",
    "NI.C116_remove_add_iff",
    "NI.C116_remove_add_in_place_iff",
    "NI.C116_selection_points_iff",
    "NI.C116_selection_add_remove_iff",
    "NI.C116_selection_remove_add_iff",
    "NI.C116_selection_add_remove_in_place_iff",
    "NI.C116_selection_remove_add_in_place_iff",
    "NI.C116_counterexample"
   ],
   "note": "Exact conditions for both orders, for trees, selections (built by unions, and after any program of C154) and single intervals; the naive claim is refuted by decide."
  },
  {
   "property": "C117",
   "status": "proved",
   "theorems": [
    "NI.C117_tree_edits",
    "NI.C117_tree_point",
    "NI.C117_selection_edits",
    "NI.C117_selection_count",
    "NI.C117_attained"
   ],
   "note": "Induction over the call sequence with a bound on what each step can add; the bound of two values per removal is attained in the example."
  },
  {
   "property": "C118",
   "status": "partial",
   "theorems": [
    "NI.C118_union_complement",
    "NI.C118_minus_left_partial",
    "NI.C118_minus_left_counterexample",
    "NI.C118_minus_right_iff",
    "NI.C118_minus_right_counterexample",
    "NI.C118_minus_right_selection_iff",
    "NI.C118_intersect_partial",
    "NI.C118_intersect_counterexample",
    "NI.C118_minus_left_iff",
    "NI.C118_minus_left_selection_iff",
    "NI.C118_minus_right_any_iff",
    "NI.C118_minus_right_result",
    "NI.C118_enclose_partial",
    "NI.C118_enclose_counterexample",
    "NI.C118_closure_partial",
    "NI.C118_closure_counterexample",
    "NI.C118_tree",
    "NI.C118_enclose_iff",
    "NI.C118_closure_iff",
    "NI.C118_minus_left_any",
    "NI.C118_minus_right_any"
   ],
   "note": "minus, minus_in_place and closure: selections built by unions, with the exact conditions for any history (C118_minus_left_iff, _selection_iff, right_any_iff; minus by a selection built by unions); enclose: smaller selection Solid. Each restriction has a counterexample. For any history enclose and closure keep the order exactly as their bounds do (C118_enclose_iff, C118_closure_iff). minus by a selection of any history: C118_minus_left_any, C118_minus_right_any."
  },
  {
   "property": "C119",
   "status": "proved",
   "theorems": [
    "NI.C119_minus_any",
    "NI.C119_add_remove_any",
    "NI.C119_tree_removals",
    "NI.C119_tree_counterexample",
    "NI.C119_point_counterexample",
    "NI.C119_tree_open",
    "NI.C119_tree_add_remove",
    "NI.C119_selection_removals",
    "NI.C119_selection_minus",
    "NI.C119_selection_add_remove",
    "NI.C119_selection_add_remove_eq"
   ],
   "note": "Exact conditions for exchanging two steps, for trees and selections; removals from a selection commute always, lists of them by induction over the permutation. Trees: counterexamples by decide."
  },
  {
   "property": "C120",
   "status": "proved",
   "theorems": [
    "NI.C120_runs_iff",
    "NI.C120_runs",
    "NI.C120_same_lists",
    "NI.C120_reports",
    "NI.C120_counterexample"
   ],
   "note": "Proved for all histories of additions, removals and complements; equivalence for any history. What does depend on the kept tree: C120_counterexample."
  },
  {
   "property": "C121",
   "status": "proved",
   "theorems": [
    "NI.C121_no_double",
    "NI.C121_by_complement",
    "NI.C121_in_use",
    "NI.C121_take_iff",
    "NI.C121_take_only",
    "NI.C121_counterexample",
    "NI.C121_stack",
    "NI.C121_stack_counterexample",
    "NI.C121_exact"
   ],
   "note": "Removal by complement and union: proved for all call sequences. Removal by minus_in_place: false in general (C121_counterexample, a number in use handed out again), exact condition per take (C121_take_iff), and right while nothing is given back (C121_take_only). Used like a stack over one interval it is right (C121_stack), over a pool with a gap it is not (C121_stack_counterexample). Exactly when it goes wrong, by what happened to the numbers: C121_exact."
  },
  {
   "property": "C122",
   "status": "proved",
   "theorems": [
    "NI.C122_tree_test",
    "NI.C122_tree",
    "NI.C122_selection_test",
    "NI.C122_selection",
    "NI.C122_without_removal",
    "NI.C122_two_values",
    "NI.C122_two_values_counterexample"
   ],
   "note": "Equality is contextual equivalence, for any history; with the explicit tests that tell unequal values apart. Selections: types of at least three values, and false for fewer (C122_two_values, C122_two_values_counterexample)."
  },
  {
   "property": "C123",
   "status": "proved",
   "theorems": [
    "NI.C123_holds",
    "NI.C123_shown",
    "NI.C123_converge"
   ],
   "note": "Proved for all executions. (Replicas that apply removals by minus_in_place as they arrive need not agree: C119.)"
  },
  {
   "property": "C124",
   "status": "proved",
   "theorems": [
    "NI.C124_exact",
    "NI.C124_local",
    "NI.C124_elsewhere",
    "NI.C124_removals",
    "NI.C124_tree"
   ],
   "note": "Proved; a complete description of the values after any such history in terms of sets."
  },
  {
   "property": "C125",
   "status": "partial",
   "theorems": [
    "NI.C125_intervals",
    "NI.C125_intervals_any",
    "NI.C125_minus",
    "NI.C125_intersects_partial",
    "NI.C125_no_double_booking",
    "NI.C125_booked_again",
    "NI.C125_counterexample",
    "NI.C125_minus_any",
    "NI.C125_minus_safe",
    "NI.C125_cancel",
    "NI.C125_cancel_wrong",
    "NI.C125_cancel_counterexample",
    "NI.C125_cancel_slots"
   ],
   "note": "Exact for the three ways of asking: C125_intervals (right; C125_intervals_any for any history and any intervals), C125_minus (refuses adjoining requests too; any program of C154: C125_minus_any, exact, and C125_minus_safe), C125_intersects_partial (compares with the first run only; C125_counterexample, C125_booked_again); in the first two no time is booked twice (C125_no_double_booking); with cancellations exact up to the first wrong one (C125_cancel, C125_cancel_wrong, C125_cancel_counterexample), right for slots of two values or more (C125_cancel_slots)."
  },
  {
   "property": "C126",
   "status": "partial",
   "theorems": [
    "NI.C126_steps",
    "NI.C126_at_once",
    "NI.C126_listed_partial",
    "NI.C126_listed_iff",
    "NI.C126_values",
    "NI.C126_counterexample",
    "NI.C126_removals_iff",
    "NI.C126_additions_iff",
    "NI.C126_minus_iff",
    "NI.C126_union_iff"
   ],
   "note": "Proved for every sequence (C126_steps, C126_at_once, C126_values) and for the listed intervals of union-built operands (C126_listed_partial); false for operands left by complement (C126_counterexample); for an operand of any history that lists no interval without a value it is true exactly if collecting the listed intervals gives back an equal selection (C126_listed_iff). For each state exactly: C126_removals_iff, C126_additions_iff, C126_minus_iff, C126_union_iff."
  },
  {
   "property": "C127",
   "status": "partial",
   "theorems": [
    "NI.C127_intersects_iff",
    "NI.C127_union_any",
    "NI.C127_complement_any",
    "NI.C127_minus_any",
    "NI.C127_union",
    "NI.C127_history_counterexample",
    "NI.C127_complement",
    "NI.C127_minus",
    "NI.C127_interval",
    "NI.C127_intervals",
    "NI.C127_intervals_counterexample",
    "NI.C127_overlaps",
    "NI.C127_intersects_partial",
    "NI.C127_intersects_counterexample"
   ],
   "note": "Exact answers proved for union-built selections (C127_union, C127_complement, C127_intervals; C127_minus and C127_overlaps with the condition under which they are right) and for intervals (C127_interval). Not right: intersects (C127_intersects_partial, C127_intersects_counterexample; exactly what it tells: C127_intersects_iff), and other histories (C127_history_counterexample, C127_intervals_counterexample). Any programs, exactly: C127_union_any, C127_complement_any, C127_minus_any."
  },
  {
   "property": "C128",
   "status": "partial",
   "theorems": [
    "NI.C128_intervals",
    "NI.C128_minus",
    "NI.C128_union",
    "NI.C128_complements",
    "NI.C128_intersects_partial",
    "NI.C128_counterexample",
    "NI.C128_intersects_iff",
    "NI.C128_minus_any",
    "NI.C128_union_any",
    "NI.C128_complements_any"
   ],
   "note": "Right interval by interval (C128_intervals); exact condition for the ways by minus, union and complement (C128_minus, C128_union, C128_complements). Not right: intersects (C128_intersects_partial, C128_counterexample); what it tells exactly is C128_intersects_iff. Any programs, exactly: C128_minus_any, C128_union_any, C128_complements_any."
  },
  {
   "property": "C129",
   "status": "proved",
   "theorems": [
    "NI.C129_complements",
    "NI.C129_intervals",
    "NI.C129_minus",
    "NI.C129_intersect",
    "NI.C129_from_intersect",
    "NI.C129_minus_any"
   ],
   "note": "Two ways are right (C129_intervals, C129_complements); what the others give is told exactly (C129_minus, C129_intersect, C129_from_intersect)."
  },
  {
   "property": "C130",
   "status": "proved",
   "theorems": [
    "NI.C130_diff",
    "NI.C130_patch",
    "NI.C130_patch_iff",
    "NI.C130_diff_complements",
    "NI.C130_patch_right_lists",
    "NI.C130_put_first",
    "NI.C130_patch_complements",
    "NI.C130_follow",
    "NI.C130_patch_any",
    "NI.C130_put_first_any",
    "NI.C130_take_first_any",
    "NI.C130_exact_any"
   ],
   "note": "The exchange by complements is right (C130_diff_complements, C130_patch_complements, C130_follow); what the others give is told exactly (C130_diff, C130_patch, C130_patch_iff, C130_patch_right_lists, C130_put_first). For copies of any history: C130_patch_any, C130_put_first_any, C130_take_first_any, C130_exact_any."
  },
  {
   "property": "C131",
   "status": "proved",
   "theorems": [
    "NI.C131_first_fit",
    "NI.C131_no_double",
    "NI.C131_by_complement",
    "NI.C131_in_use",
    "NI.C131_counterexample",
    "NI.C131_wide",
    "NI.C131_used",
    "NI.C131_used_counterexample",
    "NI.C131_in_place",
    "NI.C131_in_place_wrong",
    "NI.C131_in_place_pages"
   ],
   "note": "The search is right (C131_first_fit); keeping the free numbers by complements (C131_by_complement, C131_in_use) and keeping the numbers in use (C131_used) are right; taking out in place is right for wide blocks (C131_wide), else not (C131_counterexample, C131_used_counterexample); exactly up to the first block that cuts (C131_in_place, C131_in_place_wrong), always for whole pages (C131_in_place_pages)."
  },
  {
   "property": "C132",
   "status": "proved",
   "theorems": [
    "NI.C132_in_order",
    "NI.C132_by_complement",
    "NI.C132_counterexample",
    "NI.C132_in_place",
    "NI.C132_all",
    "NI.C132_in_place_iff"
   ],
   "note": "What a right receiver passes on (C132_in_order); keeping all and taking out by complements are right (C132_all, C132_by_complement); taking out in place is right if the value due next is never missing alone (C132_in_place), and exactly if each such value behind what has just been passed on comes next (C132_in_place_iff), else not (C132_counterexample)."
  },
  {
   "property": "C133",
   "status": "proved",
   "theorems": [
    "NI.C133_tree_debug",
    "NI.C133_tree_release",
    "NI.C133_tree_panic",
    "NI.C133_tree_agree",
    "NI.C133_tree_sublist",
    "NI.C133_tree_counterexample",
    "NI.C133_debug",
    "NI.C133_panic",
    "NI.C133_any",
    "NI.C133_release",
    "NI.C133_sound",
    "NI.C133_counterexample"
   ],
   "note": "The exact listing of every reachable tree (C133_tree_debug, C133_tree_release), when it panics (C133_tree_panic, C133_panic), of selections in terms of their runs (C133_debug for selections built by unions, C133_any for any history in which every interval listed has a value), soundness for any history (C133_sound, C133_tree_sublist) and what goes wrong in release builds (C133_counterexample)."
  },
  {
   "property": "C134",
   "status": "proved",
   "theorems": [
    "NI.C134_debug",
    "NI.C134_odd",
    "NI.C134_any",
    "NI.C134_counterexample",
    "NI.C134_turns",
    "NI.C134_release",
    "NI.C134_release_counterexample",
    "NI.C134_front"
   ],
   "note": "Every call of next_back for selections built by unions (C134_debug) and of any history (C134_any), with the point at which the assertion fails; both builds if all groups are odd (C134_odd); for every selection and build in terms of the interval listing (C134_turns, C134_front from the front), hence always in release builds (C134_release); C134_counterexample and C134_release_counterexample by decide."
  },
  {
   "property": "C135",
   "status": "proved",
   "theorems": [
    "NI.C135_clicks_exact",
    "NI.C135_clicks_wrong",
    "NI.C135_clicks_spaced",
    "NI.C135_minus_any",
    "NI.C135_complements",
    "NI.C135_laws",
    "NI.C135_toggles",
    "NI.C135_minus",
    "NI.C135_minus_iff",
    "NI.C135_counterexample",
    "NI.C135_click_iff",
    "NI.C135_clicks",
    "NI.C135_clicks_counterexample"
   ],
   "note": "By complements right for any history (C135_complements), with the laws as equalities (C135_laws) and for sequences (C135_toggles); by minus the exact result and condition (C135_minus, C135_minus_iff); single values: exact for one (C135_click_iff), exact for sequences after any right in-place edits of the empty selection (C135_clicks_exact, C135_clicks_wrong), right for values spaced otherwise than by two (C135_clicks_spaced), sufficient from any edited one (C135_clicks); counterexamples by decide."
  },
  {
   "property": "C136",
   "status": "proved",
   "theorems": [
    "NI.C136_within",
    "NI.C136_apart",
    "NI.C136_minus",
    "NI.C136_intersect",
    "NI.C136_counterexample"
   ],
   "note": "Three exact ways each (C136_within, C136_apart); minus under the condition of C42 (C136_minus), intersect exactly (C136_intersect); C136_counterexample by decide over the rationals."
  },
  {
   "property": "C137",
   "status": "proved",
   "theorems": [
    "NI.C137_sorted",
    "NI.C137_descending",
    "NI.C137_ranges",
    "NI.C137_equal",
    "NI.C137_append"
   ],
   "note": "Against an insertion sort and a right-to-left joining of neighbours written independently (SpecSort.lean): C137_sorted, C137_descending (iff), C137_ranges, C137_equal, C137_append."
  },
  {
   "property": "C138",
   "status": "proved",
   "theorems": [
    "NI.C138_intervals",
    "NI.C138_free",
    "NI.C138_values",
    "NI.C138_minus",
    "NI.C138_minus_iff",
    "NI.C138_counterexample",
    "NI.C138_intersect",
    "NI.C138_intersect_iff"
   ],
   "note": "C138_intervals, C138_free for any history; C138_values and C138_minus (exact, with C138_minus_iff) for Solid histories; C138_intersect gives the exact answer of the way by intersect for union-built selections, C138_intersect_iff when it is right; C138_counterexample by decide."
  },
  {
   "property": "C139",
   "status": "proved",
   "theorems": [
    "NI.C139_round_trip",
    "NI.C139_integers",
    "NI.C139_injective",
    "NI.C139_any_order",
    "NI.C139_together",
    "NI.C139_any_text"
   ],
   "note": "C139_round_trip and C139_integers; C139_any_order, C139_together, C139_injective, C139_any_text."
  },
  {
   "property": "C140",
   "status": "proved",
   "theorems": [
    "NI.C140_values",
    "NI.C140_pair",
    "NI.C140_only"
   ],
   "note": "C140_values (iff), C140_pair (result for every pair of numerals, overflow included), C140_only (converse)."
  },
  {
   "property": "C141",
   "status": "proved",
   "theorems": [
    "NI.C141_longest",
    "NI.C141_unsigned",
    "NI.C141_gap",
    "NI.C141_counterexample"
   ],
   "note": "C141_longest, C141_unsigned, C141_gap; wrong with sizes that overflow (C141_counterexample)."
  },
  {
   "property": "C142",
   "status": "proved",
   "theorems": [
    "NI.C142_complements",
    "NI.C142_complements_empty",
    "NI.C142_intervals",
    "NI.C142_intervals_any",
    "NI.C142_depth",
    "NI.C142_counterexample"
   ],
   "note": "C142_complements, C142_complements_empty, C142_intervals (C142_intervals_any for intervals without values), C142_depth; the complements leave gaps that is_empty sees (C142_counterexample)."
  },
  {
   "property": "C143",
   "status": "proved",
   "theorems": [
    "NI.C143_keep",
    "NI.C143_drop",
    "NI.C143_close",
    "NI.C143_long",
    "NI.C143_short",
    "NI.C143_counterexample",
    "NI.C143_keep_any",
    "NI.C143_close_any",
    "NI.C143_any_counterexample"
   ],
   "note": "C143_keep, C143_drop (exact), C143_close for any condition; C143_long, C143_short by size; values for any history C143_keep_any, C143_close_any; C143_counterexample, C143_any_counterexample by decide."
  },
  {
   "property": "C144",
   "status": "proved",
   "theorems": [
    "NI.C144_pad",
    "NI.C144_trim",
    "NI.C144_shift",
    "NI.C144_counterexample",
    "NI.C144_pad_any",
    "NI.C144_trim_any",
    "NI.C144_shift_any",
    "NI.C144_any_counterexample"
   ],
   "note": "C144_pad, C144_trim, C144_shift (exact); what release builds do on overflow: C144_counterexample by decide. For any history, with the exact conditions: C144_pad_any, C144_trim_any, C144_shift_any, C144_any_counterexample."
  },
  {
   "property": "C145",
   "status": "proved",
   "theorems": [
    "NI.C145_layers_in_place_exact",
    "NI.C145_table",
    "NI.C145_size",
    "NI.C145_layers",
    "NI.C145_layers_in_place",
    "NI.C145_layers_counterexample"
   ],
   "note": "C145_table and C145_size for the table of pairs; C145_layers for one selection per value by complements; C145_layers_in_place says what minus_in_place can get wrong, C145_layers_counterexample (by decide) that it does, and C145_layers_in_place_exact exactly when."
  },
  {
   "property": "C146",
   "status": "proved",
   "theorems": [
    "NI.C146_pieces",
    "NI.C146_uniform",
    "NI.C146_count",
    "NI.C146_counterexample",
    "NI.C146_pieces_any",
    "NI.C146_uniform_any",
    "NI.C146_count_any"
   ],
   "note": "C146_pieces_any (exact, any intervals), C146_uniform_any, C146_count_any; the same for intervals that have a value or report empty: C146_pieces, C146_uniform, C146_count; what the exception is by decide (C146_counterexample)."
  },
  {
   "property": "C147",
   "status": "proved",
   "theorems": [
    "NI.C147_count",
    "NI.C147_rank",
    "NI.C147_pick",
    "NI.C147_overflow",
    "NI.C147_rank_any",
    "NI.C147_total_any",
    "NI.C147_count_any",
    "NI.C147_count_counterexample"
   ],
   "note": "C147_count, C147_rank, C147_pick; the condition is exact (C147_overflow). For any history: C147_rank_any, C147_total_any, and exactly what counting without cutting off gives (C147_count_any, C147_count_counterexample)."
  },
  {
   "property": "C148",
   "status": "proved",
   "theorems": [
    "NI.C148_touched",
    "NI.C148_exact",
    "NI.C148_any_iff",
    "NI.C148_filled",
    "NI.C148_round_out",
    "NI.C148_round_in",
    "NI.C148_integers",
    "NI.C148_counterexample"
   ],
   "note": "C148_touched, C148_filled, C148_round_out, C148_round_in; only such f (C148_exact), integers (C148_integers); for any history the exact condition is C148_any_iff, with C148_counterexample."
  },
  {
   "property": "C149",
   "status": "proved",
   "theorems": [
    "NI.C149_partitioned",
    "NI.C149_lookup",
    "NI.C149_nearest",
    "NI.C149_nearest_counterexample"
   ],
   "note": "C149_partitioned, C149_lookup for any history; C149_nearest for selections edited in place, with C149_nearest_counterexample for others."
  },
  {
   "property": "C150",
   "status": "proved",
   "theorems": [
    "NI.C150_sweep",
    "NI.C150_same"
   ],
   "note": "C150_sweep, C150_same: exact and canonical for any history."
  },
  {
   "property": "C151",
   "status": "proved",
   "theorems": [
    "NI.C151_touch",
    "NI.C151_overlap",
    "NI.C151_overlap_iff",
    "NI.C151_counterexample",
    "NI.C151_with_values",
    "NI.C151_any",
    "NI.C151_any_counterexample"
   ],
   "note": "C151_touch (also against the collected selection), C151_overlap and C151_overlap_iff (exact); any intervals: C151_with_values (exact), C151_any; intervals without values that are kept: C151_counterexample, C151_any_counterexample."
  },
  {
   "property": "C152",
   "status": "proved",
   "theorems": [
    "NI.C152_pair",
    "NI.C152_option",
    "NI.C152_either",
    "NI.C152_reverse",
    "NI.C152_array_iff",
    "NI.C152_pair_contains",
    "NI.C152_counterexample"
   ],
   "note": "C152_pair, C152_option, C152_either, C152_reverse, C152_array_iff (exact), C152_pair_contains (with uniqueness by C99_unique); mistakes by decide (C152_counterexample)."
  },
  {
   "property": "C153",
   "status": "proved",
   "theorems": [
    "NI.C153_within",
    "NI.C153_clamped_iff",
    "NI.C153_gap",
    "NI.C153_dependent",
    "NI.C153_contains",
    "NI.C153_counterexample"
   ],
   "note": "C153_within, C153_gap, C153_dependent, C153_clamped_iff (exact), C153_contains (with uniqueness by C99_unique); the unchecked wrapper by decide (C153_counterexample)."
  },
  {
   "property": "C154",
   "status": "proved",
   "theorems": [
    "NI.C154_values",
    "NI.C154_equal",
    "NI.C154_empty_full",
    "NI.C154_intervals",
    "NI.C154_right_iff",
    "NI.C154_flags",
    "NI.C154_every",
    "NI.C154_count",
    "NI.C154_versions",
    "NI.C154_minus_iff"
   ],
   "note": "C154_values, C154_equal, C154_empty_full, C154_intervals, C154_right_iff (exact), C154_minus_iff (exact), C154_flags, C154_every, C154_count, C154_versions. The statement that every program has its values is false because of the holes (C154_right_iff, with an example), as recorded for C50-C52."
  },
  {
   "property": "C155",
   "status": "proved",
   "theorems": [
    "NI.C155_exact",
    "NI.C155_by_complement",
    "NI.C155_counterexample",
    "NI.C155_back_counterexample"
   ],
   "note": "By complements always right (C155_by_complement); by minus_in_place exactly as said (C155_exact), with counterexamples to the plain claim (C155_counterexample) and to the condition if drops go back (C155_back_counterexample)."
  },
  {
   "property": "C156",
   "status": "proved",
   "theorems": [
    "NI.C156_every",
    "NI.C156_exact",
    "NI.C156_counterexample",
    "NI.C156_by_complement",
    "NI.C156_paged"
   ],
   "note": "Exactly as said (C156_exact): the first bridged free is the first wrong one; the exact values after any calls: C156_every; always right with pages (C156_paged) and by complements (C156_by_complement); the plain claim, that the selection always is what was written and not freed since, is false (C156_counterexample)."
  },
  {
   "property": "C157",
   "status": "proved",
   "theorems": [
    "NI.C157_every",
    "NI.C157_paged",
    "NI.C157_no_free",
    "NI.C157_counterexample"
   ],
   "note": "Exactly as said (C157_every); right with pages (C157_paged) and as long as nothing is freed (C157_no_free); the plain claim, that the selection always is what is not in use, is false (C157_counterexample)."
  }
 ]
}